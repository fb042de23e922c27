# Formal model of ftchann/uniswap-simulator in Lean 4

## 1. Layout

```
lean/Verif/Model/*   executable model of the Go code, function by function, each definition cites /repo file:lines
lean/Verif/Spec/*    small independent specifications (Nat / Int / Rat arithmetic, no model helpers)
lean/Verif/Proofs/*  helper lemmas
lean/Verif/Props/*   one theorem group per property, with satisfiability examples and counterexamples
```

Technique: all integers of the Go `uint256.Int` type are modelled as four 64-bit limbs (`BitVec 64`), and
every arithmetic routine is modelled limb by limb.  All higher layers (full math, tick math, swap math,
tick store, pool, strategies, executor) are written on top of that limb type, so there is no gap between
"mathematical integers" and the code: wrap-around, truncation and panics are visible in the model.
Reasoning goes through `toNat` lemmas.

* Panics (index out of range, division by zero, `invariant.Invariant`) are an explicit `Except Err` value.
* Loops whose termination is not structural take fuel; running out of fuel is a separate error value.  A
  termination theorem says that enough fuel never runs out, a divergence theorem that every fuel runs out.
* Go `int` is modelled as unbounded `Int` (ticks are below 2^20); sums of times in the executor wrap at 64 bits.
* Go maps are modelled as functions `key → Option value`; iteration order is not observable in the modelled code.
* Pointer aliasing is modelled in a separate heap model of the pool (C34), and the value model used everywhere else is
  proved to agree with it (`C34_isolated`).  Numbers that only one call can reach are values in both.
* The methods of the 256-bit type are modelled twice: as functions on values (`Model/U256.lean`), and as programs that read and
  write words of numbers in memory (`Model/InPlace.lean`), for which `C71` proves that the value functions describe them whatever
  operands coincide.
* The arithmetic above it and the pool are modelled twice as well: on values, and as programs on memory words with explicit pointers
  (`Model/PtrMath.lean`, `Model/PtrPool.lean`), where loading or storing a number is four word accesses and package-level numbers
  are ordinary memory.  `C76` proves that the two agree for every program of a caller and that nothing but the caller's own numbers
  is written; `C77` extends this to price histories, strategies and the executor (`Model/PtrStrategy.lean`), and
  `C78` to goroutines that run at the same time (`Model/PtrMain.lean`).  Simplifications: a predicate reads all words of its operands; `MulDiv`'s internal buffer is a value; Go maps and
  slices of ticks are values that hold pointers.
* float64 (53-bit significand, round to nearest even, unlimited exponent, no signed zero) is modelled for tick rounding (C17), the drawdown (C54) and the return (C67); the statistics of log returns are modelled twice: over the reals (C64-C66, C68) and in float64 with `math.Log` as a parameter that is accurate to one unit in the last place (C82, C83). C110 proves that the two simplifications (unlimited exponent, no signed zero) change nothing: it has the same computations in full IEEE 754 (`Model/IEEE.lean`).

## 2. Trusted base

* Lean 4.33.0 kernel; axioms `propext`, `Classical.choice`, `Quot.sound` only (no own axioms, no `sorry`,
  no `native_decide`/`bv_decide`).  `decide +kernel` is kernel evaluation.
  `AXIOMS.md` lists the axioms of every theorem in `MANIFEST.json` (regenerate with `tools/axioms.py`).
* The reading of Go semantics expressed in the model (`math/bits` primitives `Add64 Sub64 Mul64 Div64
  LeadingZeros64`, slices, truncated integer division, `string(int)` conversion, map semantics).
* The transcription of /repo into `Verif/Model` (cited line by line).

## 3. Plan per property

| id | modelled | how proved |
|----|----------|------------|
| C01 | Add/Sub/Neg limb chains | carry equation per limb, then linear arithmetic over Nat |
| C02 | Umul, Mul, MulOverflow | per-step equation `hi*2^64+lo = x*y+z+c`, ring normalisation |
| C03 | reciprocal2by1, udivrem2by1, Knuth D on word lists | Möller–Granlund correctness; qhat bound; induction on quotient words |
| C04 | Cmp/Lt/Slt/Sgt/Sign | borrow equation; two's complement value `toInt` |
| C05 | Lsh/Rsh/SRsh with all branches | limb equations per branch |
| C06 | Exp bit loop | invariant `res*mult^(rest) = base^e` in modular arithmetic |
| C07 | Sqrt Newton loop | Newton step from above, decreasing until floor sqrt |
| C08 | SDiv/SMod/Abs | case split on signs on top of C03/C04 |
| C09 | Hex, fromHex, checkNumberS | digit list induction; counterexample for dirty receiver |
| C10 | SetBytes*, Bytes* | big-endian list value |
| C11 | ToBig/SToBig/FromBig | arithmetic mod 2^256 |
| C12 | MulDiv(RoundingUp) | from C02/C03 |
| C13 | same | exact panic condition of Udivrem; concrete counterexamples |
| C14 | getSqrtRatioAtTick | interval argument on the 20 mulShift factors; low-bit flip comparison, 20 kernel-checked constants |
| C15 | binary search over the table | search invariant + C14 |
| C16 | same table | error propagation through the mulShift chain over the reals; each constant pinned to the nearest integer |
| C17 | Round/Ceil/Floor on float64 | rounding of the rational quotient to the binary64 grid is monotone and exact on halves of integers |
| C18 | GetAmount*Delta | C12 + floor/ceil algebra |
| C19 | GetNextSqrtPrice* | same |
| C20 | ComputeSwapStep | C18 + C19 |
| C21 | TickData on sorted lists | sortedness invariant, search invariants |
| C22 | NextInitializedTickWithinOneWord | C21 + division lemmas; counterexample for negative ticks |
| C23 | Pool, all operations (ranges need not be aligned to the tick spacing) | invariant over histories: per-tick sums of outstanding ranges; loop invariant in swap |
| C24 | same | loop invariant using C15/C20 |
| C25, C26 | swap | loop invariant |
| C27 | swap | variant function (distance to limit in ticks + flag); divergence proved by a fixed point of the loop body |
| C28, C29 | fee growth | per-step equation in Z/2^256, then induction over histories |
| C30 | MintStrategy/BurnStrategy | C18 |
| C31 | position key | Char/String injectivity; explicit collision |
| C32, C33 | CollectStrategy, Flash | direct computation, frame conditions |
| C34 | `Model/Heap.lean`: the pool, tick store and positions again, with references into a heap of numbers, in-place writes and allocations | every operation refines the value model (`Proofs/HeapOps.lean`) and touches only its own or new cells; worlds of several pools with disjoint footprints, any schedule; counterexamples |
| C35 | Burn, UpdateTick | from C23 invariant; counterexamples |
| C36 | ExactOutputSwap | C20 for exact output; counterexample for positive amount |
| C37 | pool solvency | potential function over price intervals |
| C38 | LiquidityAmounts | floor/ceil algebra |
| C39–C42, C60 | the twelve strategies as one state with a kind; runs interleave the strategy with other users of its pool | invariant over runs: the pool is reachable with a ledger that is the sum of the own positions and of the ledger of the others; then C38, C30, C29 |
| C43–C46 | prices | ring buffer refinement; sums |
| C47–C51, C61–C63 | executor: one iteration of the loop per transaction, 64-bit times that wrap | loop invariant relating the due times to the number of past events; traces of events; a trace is a run of the strategy layer |
| C52 | goroutines writing result slots | small-step interleaving semantics, commuting writes to distinct slots |
| C53–C55 | main helpers | induction; the drawdown with binary64 rounding (monotone, idempotent, odd, relative error 2^-53) |
| C64–C68 | statistics and report of a run | sums of squares over the reals (rounding: C82), order statistics of the sorted list; the return with binary64 rounding |
| C57 | `Spec/Cash.lean`: cash flow, claims of a range (owed and pending fees), histories | invariant in units of `2^-128`: principal + sum of claims <= cash; each operation moves principal, fees and claims by bounded amounts (`Proofs/Cash.lean`), using C37 and the growth theorems; counterexample for shared records by evaluation |
| C58 | MostSignificantBit | binary search over eight powers |
| C59 | EncodeRLP | shortest big-endian encoding from C10 |
| C69 | bitwise operations, byte, sign extension, lengths | bit extensionality of the number read from the limbs |
| C70 | `Model/Mod.lean`: `Reciprocal`, `reduce4`, `MulMod` word by word (blocks generated from the Go text by `tools/modgen`, kernel-checked) | each multiplication block equals its integer value (`Proofs/ModBlocks.lean`, generated); Newton steps over the integers with explicit error bounds; Barrett reduction |
| C71 | `Model/InPlace.lean`: each method as a sequence of word reads and writes on a heap (`Model/Mem.lean`); local variables are new cells | symbolic execution, case split on which pointers coincide; induction for the loops of Exp and Sqrt |
| C72 | the swap loop of `Model/Pool.lean`; legs and paths in `Spec/SwapPath.lean` | induction over the iterations: each iteration is a leg (`leg_ok`), the sums are `run_rem`, `run_calc`; the bounds against the principal by telescoping |
| C73 | `Model/Pool.lean`, sequences of swaps in `Spec/Trading.lean` | induction over the sequence with the principal as potential; the principals of the two tokens move in opposite directions with the price |
| C74 | `Model/Pool.lean`; `SameMarket`, `SameEnd` in `Spec/Market.lean` | relational simulation of the swap loop: tick tables that agree up to fee growth, proved from the ledger invariant |
| C75 | `Model/Pool.lean`, `Model/SwapMath.lean` | lock-step comparison of two runs: while the smaller one reaches its target both take the same step; when it stops, monotonicity of one step, from the two-sided bounds of C20 |
| C76 | `Model/PtrMath.lean`, `Model/PtrPool.lean`: the arithmetic and the pool once more, as programs that take and return pointers and read and write memory word by word; constants and the table are numbers in memory; `Spec/PtrWorld.lean`: programs of a caller | for each function: it keeps to its rights (reads, writes) and refines the value function; frame rules; induction over the swap loop, the tick list and the caller's program |
| C77 | `Model/PtrStrategy.lean`: price history, the twelve strategies and the executor once more, as programs on memory words; `Spec/PtrRuns.lean`: a batch of simulations with shared inputs | each function keeps to its rights and refines the value function; invariant: the balances and the pool of a strategy are its own, what it only holds (positions, history, transactions, recorded values) is disjoint from what it writes; induction over positions, transactions and simulations |
| C78 | `Model/PtrMain.lean`: the main loop and the goroutines as programs on memory, one word access per scheduler step; `Spec/PtrMain.lean`: races | invariant: each goroutine may read the inputs and write only numbers made for it (disjoint address ranges); a program does not depend on what it may not read (induction over programs), so each one behaves as when it runs alone (C77); simulation by the machine of C52 gives results, progress; lexicographic measure for termination |
| C79 | `Model/TickLog.lean`: `getTickAtSqrtRatio` (the logarithm) | the loop invariant gives the bits of the real logarithm up to 2^-113 (induction over the loop); bounds on log 2 and log 1.0001; error bounds of the table entries from C16; both candidates are at least 4e-7 away from the logarithm in the safe direction |
| C80 | `Pool.mint`, `burn`, `mintStrategy`, `burnStrategy`, `collectStrategy` | each call is taken apart; every step returns except the division in `Info.Update` (panics when the product has two words less than the divisor) and the token0 amount; both are characterised exactly (`Proofs/Total.lean`) |
| C81 | the strategies of `Model/Strategy.lean` | induction over runs: record liquidity = sum of the positions; induction over the closing loop with C80 | 
| C82 | `Model/Stats64.lean`: the statistics with every rounding | rounding-error analysis: products of factors 1±2^-53, the triangle inequality for root sums of squares, order statistics of close lists; the computed variance of 21 equal returns is evaluated in the kernel (NaN) |
| C83 | `saveFile`, `report64` | C82 and C54, C67 give finiteness; a zero makes a return -Inf and the downward deviation +Inf | 
| C84 | the swap loop, run three times | lockstep induction over the first and the single run; where the first run ends inside a segment the second has the same target, and amounts of consecutive moves are sub/superadditive; then C75's comparison of two runs | 
| C85 | the four calls that change liquidity, in lists | what one call does, as an equation for every boundary, the liquidity and the record; two such effects commute unless one empties a shared boundary; induction over permutations; C30 for the amounts | 
| C86 | Init and Rebalance of the twelve strategies | a relation Buys that follows a list of purchases, shown for each kind; Buys is deterministic; a relation between two runs for the independence of the rest of the pool | 
| C87 | Init and Rebalance of the eleven strategies that do not swap, GetLiquidityForAmount | a relation Mints between pools shows what remains of ticks, growths and records after each purchase; every step of the plan is shown to return if its part of the condition holds, and the plan is deterministic | 
| C88 | swap | the loop with the limit and the loop with the wall as its limit are compared step by step: every step above the wall has the same target, and on the wall the loop is stuck (C27); two loops that differ only in the remaining amount make the same steps until the smaller one is filled | 
| C89 | strategies, executor | every operation of a run is matched with a cash flow of C57; the balances of the strategy and the net cash of the pool stay at most the starting balances and the payments of the others; C57_covered then bounds all claims | 
| C90 | strategies | the balance equations of C39, the list of purchases of C86 (at most three) and GetAmounts in closed form (C41); cost and worth of a position differ by at most one unit; the swap is valued with C91 | 
| C91 | swap | every leg of the path of C72 moves between two prices with the formulas of exact0 and exact1; the mean price of a leg lies between its ends, so it is never better than the first price; sequences: the value of the traders' balance is bounded by the convexity of the principal function | 
| C92 | strategies, positions | the value of a range at its own price is the least over all price points (holding_convex); rounding is against the owner on both sides; summed over the positions with the balances of C39 and C41 | 
| C93 | swap | the two loops run in step: up to the final price the searches of the two stores find the same tick or both something beyond it, and two steps that do not reach their targets are the same; the ledgers give the same active liquidity and tick data there; for exact input farInStrict excludes that the second swap reaches a target beyond the end of the first | 
| C94 | getLiquidityForAmount, burnStrategy, collectStrategy | neighbouring ticks differ by 3e-5, which outweighs the inner floor from 2^56 on; the fees of a swap accrue between its first and its last tick, so all of them accrue in both ranges, and C29 gives each position its share of the same growth | 
| C95 | Run, getPoolValueInUSD, all strategies | the loop is rewritten as the list of its events, performed one after another; the schedule has exactly one solution; every step that needs more iterations than allowed has the same outcome with more | 
| C96 | Run, all strategies | the schedule of the longer list of transactions begins with the schedule of the shorter, and the events of C95 are performed in order | 
| C97 | makeSnapshot, averageTicks, bollingerTicks, Run | no event but a price snapshot changes the history, so it is the ring buffer of C43 over the prices seen; mean and square root keep the order of prices, and ticks that of square roots | 
| C98 | swap | simulation: while the shallow pool makes one step, the deep one makes several; it has always spent at least the rounded-up input and fee that the shallow one needs for the same way, because more liquidity needs more input and roundings up only add up; a step of exact input goes as far as the input allows | 
| C99 | Run | both runs follow their schedules (C95); the schedules, which only mention differences of times apart from the price snapshots, have the same actions in every row (induction over the rows); equal events on equal states have equal outcomes | 
| C100 | MintStrategy, BurnStrategy | the amounts are the exact ones rounded up and down (C30); the exact amounts change by LQ(1/x-1/y) and L(y-x)/Q, whose ratio is xy/Q^2 | 
| C101 | swap, both kinds | lockstep simulation of the two loops: steps that reach the target are equal; in the last one the price from the output is the nearest that frees it, the price from the input the furthest that it pays for | 
| C102 | Run | the rows of the two runs agree but for the varied action; the value event leaves the strategy alone, the other two are idle for the strategies named | 
| C103 | MintStrategy, BurnStrategy, CollectStrategy, GetFeeGrowthInside, Cross | exact amounts are additive over adjacent ranges and rounded once each; the fees a range receives are the sum of those its parts receive, by induction over the log of accruals | 
| C104 | swap, ComputeSwapStep | two runs of the loop in step: as long as the dearer one reaches its targets the cheaper one does with less, then the cheaper one goes on | 
| C105 | main.go: the statistics and createResult | proportional series have the same log returns; the loop of the drawdown over a concatenation; return and quantile are changes between an earlier and a later value | 
| C106 | limit_order.go | the three purchases one after another, with the balances between them; the fields written after each | 
| C107 | pool.go, strategies | two runs side by side: the fee increments of equal markets are equal (swap loop, flash), the growth inside a range since the record was written is equal, records of closed positions are empty | 
| C108 | fuzz.go (`Model/Fuzz.lean`, on the memory model of C71) | each check is executed step by step with the contents of the cells it uses; the methods are those of C71, their values compared with integer arithmetic | 
| C109 | the same parts as C57 | lower bound that matches the invariant of C57: no wrap-around while the cash is below 2^128, all liquidity recorded, so the growth of all claims is the sum over the accruals of increment times active liquidity; legs of a swap lose less than one unit each | 
| C110 | IEEE 754 float64 with signed zeros, overflow and subnormals; the statistics and the tick rounding again in it | every intermediate result is a multiple of a power of two not below 2^-400 and at most 2^400, so the exponent limits never matter; signs of zeros by cases | 
| C111 | collections of a position at any times between operations of others | the pool is the one that the others alone lead to but for one record, and the calls of others do not read that record; the received amounts are sums of rounded shares | 
| C112 | GetLiquidityForAmount with other amounts; Init of two or three strategies of the same kind | the liquidity in closed form (quotients and a minimum), which is monotone and superadditive; the first range of C60 is determined by the kind, price, tick and history | 
| C113 | two runs of swap from the same pool with different limits | the runs agree step by step until the nearer limit is reached; in that step the targets differ, and the step maths is compared at the two targets; what follows only adds to the farther run | 
| C114 | three runs of swap: with the nearer limit, from where it ends with the farther limit, and at once with the farther limit | the first and third run agree until the limit; the step cut there is compared with its two parts; after that the runs are ordered by monotonicity in the amount (C75) | 
| C115 | the rounded ranges of C42, the first position of C60 and the ledger of C23 | arithmetic on nearest multiples; the active liquidity is a sum over the ledger, split into the strategy's and the others' part | 
| C116 | closing (C40), the first position of Rebalance (C60) and GetLiquidityForAmount | what closing pays plus one unit covers the cost of the old liquidity; the liquidity computed is the largest affordable up to one unit (C38) | 
| C117 | GetAmounts (C41), the recorded value (C63) | the holdings of a range are monotone in the price; among all compositions of a range the one of the price is worth least at it (as C92), applied in both directions | 
| C118 | two swaps (C72) in two pools as in C98 | the amounts of a path are the change of the principal up to one unit per iteration; the value of the principal at the final price of the second swap is least there (C92), for the first ledger and for the difference of the two; the second takes at least as much (C98) | 
| C119 | two swaps (C72) in one state | the amounts of a path are the change of the principal up to rounding, whose value at the final price of the first swap is least there (as C118) | 
| C120 | cost (C39) and worth (C41) of the positions at two prices | the difference of the exact holdings is a rational identity; rounding adds less than two units per token and position | 
| C121 | the run model of C61, cut at the rebalances | induction over the periods; each by C39, C41 and C120 | 
| C56 | `Model/Decimal.lean` (texts of `math/big`, character by character), `Model/Transaction.lean` (`MarshalJSON`, loader; not the JSON syntax) | value of digit strings by induction; the executor only reads the fields kept per type, so the runs agree step by step |

Not expressible / not modelled: file and network IO, JSON syntax of encoding/json, performance,
`math/big` internals (its operations are taken as exact integer arithmetic), `math.Log` (a parameter of the
model of the statistics; the theorems assume an error of at most one unit in the last place), the JSON text of the
results file, `Format` of the vendored uint256 library.

## 4. Disagreements between code and expectation (found while modelling)

See the notes in MANIFEST.json; each is recorded as a theorem with a concrete witness.

1. `MulDiv` panics for small products and large denominators (C13).
2. Downward tick search wrong for negative ticks, downward swaps through tick 0 never terminate (C22, C27).
3. Position key collisions for negative ticks (C31); with them fees can be collected twice and the pool pays out more than
   it got (C57_collision). At negative ticks the fill-up strategy runs into this with its own two positions (C121_shared).
4. `position.Info.Clone` copies the wrong field; tick clone is shallow (C34).
5. `Burn` does not check coverage and creates stray ticks (C35).
6. `ExactOutputSwap` with positive amounts is an exact-input swap (C36).
7. Price overflow check after wrap-around (C46).
8. Price snapshot schedule starts at 0 (C50).
9. Three strategies keep their positions after BurnAll, and a second BurnAll pays them again (C40_twice).
10. Decoding hex text into a non-zero Int gives a wrong value (C09).
11. The value recorded in a run is wrong for square root prices from 2^128 on (C63_wraps).
12. A run whose first recorded value is zero reports NaN as drawdown and NaN or +Inf as return (C54_nan, C67); JSON cannot
    encode these, `saveFile` ignores the error, and no result of any run is saved.
13. `IntPow` with the largest `int` as exponent does not return (C53_diverges); a negative exponent returns the base.
14. `Fuzz` returns before its `switch`, so only `Sqrt` is ever fuzzed (C108).
15. An exact output moves the price by whole units and pays only what was asked for; what the last unit frees beyond that belongs to nobody (C109_exact_output). The fees of liquidity added with the plain `Mint` belong to nobody either (C109_plain).
16. The strategy that swaps half of its excess first chooses its range from the price before the swap, so the swap can carry the price out of the range it then opens (C115_swapped).
17. A range of exactly half the tick spacing can open beside the price instead of around it, because both ends round up (C115_half).
18. Where the upward search for the next tick skips a word of the bitmap, a trader with a price limit can gain by stopping and trading again (C114_skipped).
19. Rebalancing an unchanged range without spare units loses liquidity to rounding although no fee was earned (C116_shrinks).
