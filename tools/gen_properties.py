#!/usr/bin/env python3
"""Writes ../properties.jsonl.  The list lives here so that it stays one valid JSON object per line."""
import json, os
P = []
def prop(i, title, statement, quantifier, why, anchors):
    P.append(dict(id=i, title=title, statement=statement, quantifier=quantifier,
                  why_tests_cant=why, anchors=anchors))
prop("C01", "256-bit addition, subtraction and negation are exact modulo 2^256, and the overflow flags are exact",
 "Int.Add, Sub, Neg, AddUint64 and SubUint64 return the mathematical result modulo 2^256. AddOverflow reports overflow exactly when x+y >= 2^256 and SubOverflow exactly when x < y.",
 "all pairs of 256-bit values",
 "The carry chain has four 64-bit limbs; a test samples a vanishing fraction of the 2^512 operand pairs and carry bugs hide at limb boundaries.",
 ["uint256/uint256.go: Add, AddOverflow, Sub, SubOverflow, Neg, AddUint64, SubUint64"])
prop("C02", "256-bit multiplication is exact",
 "Umul returns the full 512-bit product; Mul returns the product modulo 2^256; MulOverflow additionally reports overflow exactly when the product is >= 2^256.",
 "all pairs of 256-bit values",
 "Carry propagation between 16 partial products depends on all operand bits.",
 ["uint256/uint256.go: UmulStep, UmulHop, Umul, Mul, MulOverflow, squared"])
prop("C03", "Division and remainder are exact",
 "Div returns floor(x/y) and Mod returns x mod y for every y != 0, and both return 0 for y = 0; Udivrem returns the exact quotient words and the exact remainder whenever it returns. No call of Div or Mod panics.",
 "all pairs of 256-bit values; all numerators of up to eight words",
 "Knuth's algorithm D has rare branches (quotient digit too large, add-back) that are hit with probability about 2^-63 on random inputs.",
 ["uint256/uint256.go: Udivrem, udivremKnuth, udivremBy1, subMulTo, addTo, Div, Mod", "uint256/div.go: reciprocal2by1, udivrem2by1"])
prop("C04", "Comparisons and sign agree with the numeric order",
 "Cmp, Lt, Gt, Eq, IsZero, LtUint64, GtUint64, IsUint64 decide the unsigned order; Slt, Sgt and Sign decide the two's complement order.",
 "all pairs of 256-bit values",
 "Exhaustive testing is impossible and borrow bugs appear only when limbs tie.",
 ["uint256/uint256.go: Cmp, Lt, Gt, Eq, Slt, Sgt, Sign, IsZero, LtUint64, GtUint64, IsUint64"])
prop("C05", "Shifts are multiplication and floor division by powers of two",
 "Lsh(x,n) = x*2^n mod 2^256, Rsh(x,n) = floor(x/2^n), SRsh(x,n) = floor(signed x / 2^n) in two's complement.",
 "all 256-bit values and every shift amount n (any unsigned integer)",
 "Each of the four limb-distance branches and the 64-multiples are separate code paths joined by gotos.",
 ["uint256/uint256.go: Lsh, Rsh, SRsh"])
prop("C06", "Exponentiation is exact modulo 2^256",
 "Exp(base, e) = base^e mod 2^256.",
 "all bases and all 256-bit exponents",
 "The loop runs over up to 256 exponent bits; a sample cannot cover the word hand-over points for all bases.",
 ["uint256/uint256.go: Exp, squared, BitLen"])
prop("C07", "Sqrt returns the floor of the square root and terminates",
 "Sqrt(x) terminates and its result z satisfies z*z <= x < (z+1)*(z+1).",
 "all 256-bit values",
 "Newton iteration stops on a comparison; off-by-one results occur only near perfect squares.",
 ["uint256/uint256.go: Sqrt"])
prop("C08", "Signed division, remainder and absolute value follow two's complement semantics",
 "SDiv truncates towards zero (0 for a zero divisor, wrapping for MinInt/-1), SMod takes the sign of the dividend, Abs wraps only at the minimum value.",
 "all pairs of 256-bit values",
 "Sign combinations interact with the wrap-around at the minimum value.",
 ["uint256/uint256.go: SDiv, SMod, Abs, Neg, Sign"])
prop("C09", "Hex text round-trips",
 "FromHex(z.Hex()) returns z; FromHex accepts exactly the strings 0x/0X + 1..64 hex digits without a redundant leading zero and returns their value. Decoding into an existing Int (UnmarshalText/UnmarshalJSON) accepts the same strings but does not clear the Int first: each 64-bit limb keeps its old content shifted left by the digits that belong to it, so the value is the text's when the Int was zero or the text has 64 digits, and can be wrong otherwise.",
 "all 256-bit values; all input strings; all previous contents of the receiver",
 "The set of strings is infinite and the defect needs a non-zero receiver.",
 ["uint256/conversion.go: Hex, FromHex, fromHex, checkNumberS, UnmarshalText, UnmarshalJSON, MarshalText"])
prop("C10", "Byte encodings round-trip",
 "SetBytes interprets its argument (its last 32 bytes if longer) as a big-endian number; Bytes32, Bytes, PaddedBytes and Bytes20 produce the big-endian encoding; SetBytes(Bytes(z)) = z.",
 "all 256-bit values and all byte strings of any length",
 "33 separate length-specific decoders, unbounded input length.",
 ["uint256/uint256.go: SetBytes, Bytes32, Bytes20, Bytes, PaddedBytes", "uint256/conversion.go: SetBytes1..SetBytes32"])
prop("C11", "Conversions to and from arbitrary-precision integers are exact",
 "ToBig is the unsigned value, SToBig the two's complement value, FromBig(b) is b modulo 2^256 (negative b included) with overflow flag exactly when |b| >= 2^256, and FromBig(SToBig(z)) = z.",
 "all 256-bit values and all integers",
 "The integers are unbounded.",
 ["uint256/conversion.go: ToBig, SToBig, FromBig, SetFromBig", "main.go: stringToUint256"])
prop("C12", "MulDiv and MulDivRoundingUp compute floor and ceiling of a*b/d with a 512-bit intermediate",
 "Whenever MulDiv(a,b,d) returns and floor(a*b/d) < 2^256 its value is floor(a*b/d); likewise MulDivRoundingUp returns ceil(a*b/d). When the quotient is larger the low 256 bits are returned without any error.",
 "all triples of 256-bit values",
 "Phantom overflow handling matters only for products above 2^256.",
 ["lib/fullmath/fullmath.go: MulDiv, MulDivRoundingUp"])
prop("C13", "MulDiv fails only on the inputs it documents (division by zero or result overflow)",
 "A user expects MulDiv to fail only for a zero denominator or an overflowing quotient. The code also panics when the denominator has at least two more 64-bit words than a non-zero product (for example 1*1/2^128), and never panics for a zero product. The exact panic set is characterised.",
 "all triples of 256-bit values",
 "The failing region is defined by word lengths, not by values tests would try.",
 ["lib/fullmath/fullmath.go: MulDiv, MulDivRoundingUp", "uint256/uint256.go: Udivrem"])
prop("C14", "The tick-to-price table is strictly increasing with the documented end points",
 "GetSqrtRatioAtTick is defined exactly for ticks in [-887272, 887272], strictly increasing, equals MinSqrtRatio and MaxSqrtRatio at the ends and 2^96 at tick 0.",
 "all 1,774,545 ticks and all pairs of them",
 "Monotonicity is a statement about every adjacent pair of a table produced by 20 rounded multiplications.",
 ["lib/tickmath/tickmath.go: getSqrtRatioAtTick, initTickMath, TickMath.GetSqrtRatioAtTick"])
prop("C15", "GetTickAtSqrtRatio returns the greatest tick whose price does not exceed the argument",
 "For every price in [MinSqrtRatio, MaxSqrtRatio) it returns t with ratio(t) <= price < ratio(t+1), it terminates, it inverts GetSqrtRatioAtTick, and it panics exactly outside that range.",
 "all 256-bit prices",
 "About 2^160 admissible arguments.",
 ["lib/tickmath/tickmath.go: TickMath.GetTickAtSqrtRatio"])
prop("C16", "The price at tick t is sqrt(1.0001)^t in Q64.96 up to a tiny relative error",
 "The ratio returned for tick t is sqrt(1.0001)^t * 2^96 rounded up: for ticks at or below zero it exceeds the exact value by at most 1 + 2^-28 and is at most 2^-27 below it; above zero the deviation grows by at most P^2/2^218 for the exact price P.",
 "all ticks",
 "The reference value is irrational; tests compare a few literals.",
 ["lib/tickmath/tickmath.go: getSqrtRatioAtTick, mulShift"])
prop("C17", "Tick rounding is exact despite floating point",
 "Round, Ceil and Floor of a tick to a positive unit return the nearest (half away from zero), next and previous multiple of the unit, for every tick-sized argument, even though they compute in float64.",
 "all |x| < 2^31 and units 1..2^20",
 "Double rounding errors would show only at isolated arguments.",
 ["lib/tickmath/tickmath.go: Round, Ceil, Floor"])
prop("C18", "Token amounts between two prices match the contract formulas and round in the pool's favour",
 "GetAmount0Delta and GetAmount1Delta, when they return, equal the Uniswap v3 formula; rounding up never undercharges, rounding down never overpays, the two differ by at most a small constant; the result does not depend on the order of the prices.",
 "all prices below 2^160 and liquidities below 2^128",
 "Rounding direction has to hold for every price pair.",
 ["lib/sqrtprice_math/sqrtprice_math.go: GetAmount0Delta, GetAmount1Delta, GetAmount0DeltaRounded, GetAmount1DeltaRounded"])
prop("C19", "The next price computed from an amount moves in the right direction and never gives value away",
 "GetNextSqrtPriceFromInput moves the price down (token0 in) or up (token1 in) and the input needed to reach the new price, rounded up, does not exceed the given input, and no further price is affordable with it (up to one known fallback for huge products); the output variant never moves the price less than needed to pay the output, nor further.",
 "all prices in [2^32, 2^160), which includes every valid pool price, liquidities in (0,2^128), amounts below 2^160",
 "Overflow-dependent branches and two rounding steps per call.",
 ["lib/sqrtprice_math/sqrtprice_math.go: GetNextSqrtPriceFromInput, GetNextSqrtPriceFromOutput, getNextSqrtPriceFromAmount0RoundingUp, getNextSqrtPriceFromAmount1RoundingDown"])
prop("C20", "One swap step never overshoots the target, never spends more than remains, and charges at least the fee rate",
 "ComputeSwapStep returns a price between the current and the target price; for exact input amountIn + fee <= remaining with equality when the target is not reached; for exact output amountOut <= requested; amountIn covers the price move and amountOut does not exceed it; fee*(10^6-feePips) >= amountIn*feePips. A step that stops before the target has moved the price as far as the input after fees allows (exact input) and no further than the requested output needs (exact output).",
 "all prices in [2^32, 2^160), which includes every valid pool price, liquidities below 2^128, remaining amounts below 2^160 (any amount for exact output), fees below 10^6",
 "Four direction/mode combinations with rounding in each.",
 ["lib/swapmath/swapmath.go: ComputeSwapStep"])
prop("C21", "The tick store behaves like a finite map sorted by tick",
 "After any sequence of updates, clears and crossings the store holds at most one entry per tick in increasing order; an update touches only the addressed tick; lookups return the entry of the requested tick and panic iff there is none; the binary searches terminate.",
 "all sequences of operations of any length, all tick values",
 "State space is unbounded; index arithmetic errors need particular list shapes.",
 ["lib/tickdata/tickdata.go: UpdateTick, ClearTick, Cross, GetTick, binarySearch, binarySearch2"])
prop("C22", "The next-tick search never skips an initialized tick and always makes progress",
 "Searching down returns a tick <= the start, searching up a tick > the start, with no initialized tick skipped and the flag telling whether the returned tick is initialized. The downward direction is wrong for negative ticks that are not a multiple of the spacing, because Go division truncates towards zero.",
 "all tick stores, all start ticks, all positive spacings",
 "Needs every store shape; the defect is confined to negative ticks that the sample data never visits.",
 ["lib/tickdata/tickdata.go: NextInitializedTickWithinOneWord, nextInitializedTick"])
prop("C23", "Active liquidity equals the liquidity of the positions that contain the current tick",
 "After any history of mints, covered burns, collects, flashes and swaps, pool.Liquidity equals the sum of the outstanding liquidity over all ranges [lower, upper) containing TickCurrent, and the net/gross liquidity of every stored tick equals the corresponding sum.",
 "all histories of pool operations of any length",
 "An invariant over unbounded histories with tick crossings in both directions.",
 ["lib/pool/pool.go: modifyPosition, modifyPositionStrategy, updatePosition, swap, Mint, Burn", "lib/tickdata/tickdata.go: UpdateTick, Cross"])
prop("C24", "The current tick and the current price always agree",
 "After any history, ratio(TickCurrent) <= SqrtRatioX96 <= ratio(TickCurrent+1).",
 "all histories of pool operations",
 "Swap updates tick and price on different branches; agreement is an invariant over all paths.",
 ["lib/pool/pool.go: NewPool, swap"])
prop("C25", "A swap moves the price only in its direction and never past the price limit",
 "Selling token0 never ends below the limit and never raises the price, except when it starts at a tick where the downward search is broken (C22), where it never lowers the price; selling token1 never lowers it and never ends above the limit; a limit on the wrong side or outside the global range is rejected by a panic with no state change.",
 "all pools satisfying the invariant, all amounts and limits",
 "Every path through a loop of unbounded length.",
 ["lib/pool/pool.go: swap, ExactInputSwap"])
prop("C26", "An exact-input swap consumes at most the given amount, and all of it unless the price limit is hit; the other side is paid out",
 "The input leg returned is between 0 and the specified amount, equals it unless the final price is the limit; the output leg is <= 0.",
 "all pools satisfying the invariant, all positive amounts",
 "Loop of unbounded length with rounding in each iteration.",
 ["lib/pool/pool.go: swap, ExactInputSwap"])
prop("C27", "Swaps terminate",
 "Every swap finishes in a bounded number of iterations. True for swaps upwards, and for swaps downwards that do not have to pass a multiple of 256 tick spacings at or below tick 0; a swap downwards that has to pass one loops forever.",
 "all pools satisfying the invariant, all amounts and limits",
 "Non-termination cannot be observed by a finite test.",
 ["lib/pool/pool.go: swap", "lib/tickdata/tickdata.go: NextInitializedTickWithinOneWord"])
prop("C28", "Fee growth inside a range grows only while the current tick is in the range",
 "While both boundary ticks stay initialized, every operation increases fee growth inside [lower, upper) by exactly the global increments that accrued while lower <= tick < upper (modulo 2^256).",
 "all histories, all ranges",
 "The outside/inside bookkeeping is relative and flips at each crossing; only an invariant over all crossings shows it right.",
 ["lib/tickdata/tickdata.go: GetFeeGrowthInside, Cross, makeTick", "lib/pool/pool.go: swap, Flash"])
prop("C29", "A position is credited its share of the fees that accrued in its range, and nothing else",
 "Mint a range, let any other operations happen, burn and collect: the payout is the principal plus floor(L * in-range growth / 2^128).",
 "all histories between the mint and the burn",
 "End-to-end statement over arbitrary interleaved histories.",
 ["lib/pool/pool.go: MintStrategy, BurnStrategy, CollectStrategy, updatePosition", "lib/position/position.go: Update"])
prop("C30", "Minting and burning the same liquidity at the same price never makes a profit",
 "The amounts charged by a mint are at least the amounts credited by burning the same liquidity at the same price, and exceed them by at most one unit per token.",
 "all pools, ranges and liquidities",
 "Rounding inequality over all prices.",
 ["lib/pool/pool.go: MintStrategy, BurnStrategy", "lib/sqrtprice_math/sqrtprice_math.go: GetAmount0DeltaRounded, GetAmount1DeltaRounded"])
prop("C31", "Positions with different ranges are kept apart",
 "Operations on one range must not affect the position record of another. The key is string(tickLower)+\"-\"+string(tickUpper), which is injective on valid rune values but maps every negative tick (and surrogates) to U+FFFD, so distinct ranges with negative ticks share one record.",
 "all pairs of ranges",
 "Tests use one range with positive ticks.",
 ["lib/pool/pool.go: updatePosition, CollectStrategy"])
prop("C32", "Collect pays exactly what is owed, once",
 "CollectStrategy returns the owed amounts and zeroes them, changes nothing else, a second collect returns zero, and it panics iff no position record exists.",
 "all pools and ranges",
 "Frame condition over the whole state.",
 ["lib/pool/pool.go: CollectStrategy"])
prop("C33", "Flash adds exactly the fee per unit of liquidity to the fee growth and changes nothing else",
 "Flash(a0,a1) adds floor(ceil(a*fee/10^6)*2^128/liquidity) to each global fee growth modulo 2^256, panics when liquidity is not positive, and leaves every other field alone.",
 "all pools and amounts",
 "Frame condition and exact arithmetic over all states.",
 ["lib/pool/pool.go: Flash"])
prop("C34", "A cloned pool is independent of the original",
 "Clone changes no pool, and from then on operations on a pool, its clones and clones of clones, interleaved in any way, have no effect on the other pools: each pool shows what its own operations alone make of it. This holds as long as pools are cloned while they have no ticks, as main does. Otherwise it fails: the clone shares the numbers in the ticks with the original, and in every position of a clone the owed token0 is the owed token1 of the original.",
 "all new pools, all schedules of operations and clones on any number of pools",
 "Aliasing shows only for particular interleavings.",
 ["lib/pool/pool.go: Clone", "lib/tickdata/tickdata.go: Clone", "lib/position/position.go: Clone"])
prop("C35", "Burning what was minted restores the pool",
 "Burning liquidity that was minted before restores the tick entries; a tick is removed exactly when nothing references it any more. Burning zero on a fresh range, or more than was minted, is not rejected by Burn and leaves stray ticks.",
 "all histories",
 "History-dependent.",
 ["lib/pool/pool.go: Burn, modifyPosition", "lib/tickdata/tickdata.go: UpdateTick, ClearTick"])
prop("C36", "What ExactOutputSwap takes and pays",
 "ExactOutputSwap with a positive amount is executed as an exact-input swap of that amount of the other token; only a negative amount gives exact-output behaviour, in which case the amount paid out never exceeds the request.",
 "all pools and amounts",
 "Statement about all amounts; no test calls the function.",
 ["lib/pool/pool.go: ExactOutputSwap, swap"])
prop("C37", "The pool stays solvent",
 "After any history of strategy mints, covered burns and swaps, the tokens paid in minus the tokens paid out cover the principal of all outstanding positions at the current price.",
 "all histories",
 "Global inequality over unbounded histories with rounding in every step.",
 ["lib/pool/pool.go: MintStrategy, BurnStrategy, swap", "lib/swapmath/swapmath.go: ComputeSwapStep"])
prop("C38", "The liquidity computed for given amounts is affordable",
 "Minting GetLiquidityForAmount(price, a, b, amount0, amount1) costs at most amount0 and amount1, GetAmountsForLiquidity of it is at most what the mint charges, and it is the most the amounts can buy up to the rounding of the computation.",
 "all prices, ranges and amounts",
 "Chained floor/ceil inequality for all inputs.",
 ["lib/liquidity_amounts/liquidity_amounts.go: GetLiquidityForAmount, GetAmountsForLiquidity", "lib/sqrtprice_math/sqrtprice_math.go"])
prop("C39", "A strategy never spends more than it holds",
 "In every Init and Rebalance of every strategy the subtraction of minted amounts from the token balances never wraps.",
 "all strategies, all pool histories and parameters",
 "Wrap-around would need a particular rounding case.",
 ["lib/strategy/*.go: mintPosition, Init, Rebalance"])
prop("C40", "Liquidating a strategy returns everything and leaves no position",
 "BurnAll returns the balances plus everything burned and collected and leaves no open position, so a second BurnAll is a no-op. Three strategies (constant interval, interval around price, two intervals) keep their position list, so a second BurnAll burns again.",
 "all strategy states",
 "Call sequences beyond those of the executor.",
 ["lib/strategy/*.go: BurnAll"])
prop("C41", "The reported value of a strategy equals its balances plus the principal a burn would pay",
 "GetAmounts returns balances plus, for each position, exactly what BurnStrategy would credit as principal at the current price (uncollected fees are not counted), and does not change the state.",
 "all strategy states with consistent pools",
 "Two independent code paths have to agree for all prices.",
 ["lib/strategy/*.go: GetAmounts", "lib/liquidity_amounts/liquidity_amounts.go", "lib/pool/pool.go: BurnStrategy"])
prop("C42", "Strategy ranges are well formed",
 "The ranges a strategy mints have lower < upper, lie in the global tick range and are centred as documented, whenever no panic is raised.",
 "all strategies, parameters and pool states",
 "All parameter combinations.",
 ["lib/strategy/*.go: Init, Rebalance, getTicks, setPositions"])
prop("C43", "The price history holds the last n snapshots",
 "After any sequence of Add calls the history contains the squares of the last n prices (zeros before n calls).",
 "all histories of any length, all n >= 1",
 "Ring index wrap-around over unbounded histories.",
 ["lib/prices/prices.go: NewPrices, Add"])
prop("C44", "Average is the floor of the mean of the stored squared prices",
 "Average returns floor(sum/n) without overflow while the overflow check has held and n <= 2^26, and lies between the minimum and the maximum stored value.",
 "all histories",
 "Sum over arbitrary histories.",
 ["lib/prices/prices.go: Average"])
prop("C45", "Volatility is the floor square root of the sample variance",
 "Volatility returns floor(sqrt(floor(sum (x-avg)^2/(n-1)))) for n >= 2, is zero for constant histories, and panics for n = 1.",
 "all histories",
 "Arithmetic identity over all histories.",
 ["lib/prices/prices.go: Volatility"])
prop("C46", "Adding a price whose square overflows is rejected",
 "Add is meant to panic when the squared price does not fit. It does so for every price below 2^128 whose square is >= 2^230, but the check runs after the wrap-around, so e.g. price 2^128 is accepted and recorded as 0.",
 "all 256-bit prices",
 "Only prices above 2^128 show the defect.",
 ["lib/prices/prices.go: Add"])
prop("C47", "A run applies exactly the transactions up to the end time, in order, each once",
 "Run feeds the pool with the transactions before the first one later than EndTime, in order and once each; for a strategy that never touches the pool the final pool equals the plain replay.",
 "all transaction lists and time parameters",
 "Unbounded lists.",
 ["lib/executor/executor.go: Run"])
prop("C48", "Value snapshots follow the schedule",
 "The first snapshot is taken at the first transaction at or after StartTime, then at most one per transaction, consecutive due times are exactly SnapShotInterval apart, and one final snapshot is always appended.",
 "all transaction lists and intervals",
 "Unbounded lists.",
 ["lib/executor/executor.go: Run"])
prop("C49", "Rebalances follow the schedule",
 "No rebalance happens before start + UpdateInterval, the k-th rebalance never before start + k*UpdateInterval, and a rebalance happens at the first transaction at or after its due time.",
 "all transaction lists and intervals",
 "Unbounded lists.",
 ["lib/executor/executor.go: Run"])
prop("C50", "Price snapshots are taken once per price interval",
 "The due time starts at 0 instead of the start time, so with real timestamps a price snapshot is taken at every transaction until the due time has caught up; the k-th snapshot is due only at (k-1)*interval.",
 "all transaction lists and intervals",
 "The sample run cannot distinguish the schedules without looking inside.",
 ["lib/executor/executor.go: Run", "lib/strategy/*.go: MakeSnapshot"])
prop("C51", "A buy-and-hold run leaves the pool as in a plain replay and keeps its balances",
 "With the no-provision strategy the amounts returned by Init, GetAmounts and BurnAll are always the initial amounts, and the pool evolves as in a replay.",
 "all transaction lists",
 "Unbounded lists.",
 ["lib/strategy/no_provision.go", "lib/executor/executor.go: Run"])
prop("C52", "Parallel runs do not interfere and every result slot is filled once",
 "For every schedule of the goroutines, results[i] is the result of the i-th simulation, each slot is written exactly once, and the wait group returns only when all are written.",
 "all schedules, all numbers of runs and batch sizes",
 "The number of interleavings is astronomically large.",
 ["main.go: main, runAndAppend"])
prop("C53", "IntPow computes powers",
 "IntPow(n,m) is n^m reduced to 64 bits for every m >= 0 below the largest int; for negative m it returns n; for the largest int it never returns.",
 "all n and m >= 0",
 "Unbounded arguments.",
 ["main.go: IntPow"])
prop("C54", "Maximum drawdown lies in [-1, 0] and is the worst peak-to-trough loss",
 "For two or more values with a positive first one the float64 result is a number in [-1, 0], within 2^-49 of the minimum over i <= j of (v_j - v_i)/v_i, and (for values up to 2^53) 0 exactly for non-decreasing series. If the first value is zero the result is NaN; for fewer than two values it is 0.",
 "all value series",
 "Unbounded series.",
 ["main.go: calculateMaximumDrawdown"])
prop("C55", "Daily and weekly series pick every 24th and 168th hourly value",
 "pricesDaily[k] = hourly[24k] and pricesWeekly[k] = hourly[168k], with lengths ceil(n/24) and ceil(n/168).",
 "all snapshot series",
 "Unbounded series.",
 ["main.go: runAndAppend"])
prop("C56", "Transactions survive being written to a file and read back",
 "MarshalJSON writes every 256-bit amount as its usual signed decimal text; the loader reads any decimal text as its value modulo 2^256 and a missing amount as 0, so every amount comes back unchanged. A swap keeps everything but the liquidity amount and the tick range, a mint or burn everything but price, tick and flag, a flash loan its two amounts; encoding any other type panics. A run over the transactions read back is the run over the originals.",
 "all amounts, all texts, all transactions, all lists of transactions, all executions",
 "All 2^256 amounts and texts of any length; a lost digit or a dropped field shows up only in some values.",
 ["lib/transaction/transaction.go: MarshalJSON", "main.go: getTransactions, stringToUint256"])
prop("C58", "MostSignificantBit is the position of the highest bit",
 "For every non-zero x, 2^MostSignificantBit(x) <= x < 2^(MostSignificantBit(x)+1); for zero the result is zero.",
 "all 256-bit numbers",
 "2^256 arguments; only powers of two and their neighbours are boundary cases.",
 ["lib/tickmath/tickmath.go: MostSignificantBit"])
prop("C59", "RLP encoding is canonical",
 "EncodeRLP writes the RLP encoding of the shortest big-endian byte string of the number: 0x80 for zero, the byte itself below 128, otherwise 0x80+length followed by the bytes without leading zeros.",
 "all 256-bit numbers",
 "The length prefix and the position in the 33-byte buffer depend on the bit length; each of the 257 lengths is a separate path.",
 ["uint256/conversion.go: EncodeRLP"])
prop("C60", "A strategy invests everything its main range can take",
 "Init and Rebalance open the first documented range first, with the liquidity GetLiquidityForAmount computes from the whole balances, unless that is zero.",
 "all strategies except buy-and-hold and the swapping one, all pool histories, histories of prices and parameters",
 "The balances after a history of swaps, fees and rebalances are not enumerable.",
 ["lib/strategy/*.go: Init, Rebalance, mintPosition", "lib/liquidity_amounts/liquidity_amounts.go: GetLiquidityForAmount"])
prop("C61", "The strategy guarantees hold at every point of a run",
     "In a run of a new strategy on a new pool every state between two calls is one the strategy properties (C39-C42, C60) speak about, so the recorded end value is the value of the balances plus the holdings and fees of all open positions, and the liquidity left in the pool is that of the transactions.",
     "all runs of all strategies whose transactions burn at most what was minted and whose liquidity fits in 128 bits",
     "quantifies over all interleavings of strategy calls and transactions",
     ["lib/executor/executor.go:Run", "lib/strategy/strategy.go:Strategy"])
prop("C62", "When an execution can be created",
     "CreateExecution panics exactly when there is no transaction, the update interval is zero, or the number of update intervals from the start to the last transaction is negative.",
     "all transaction lists and time parameters",
     "all integers",
     ["lib/executor/executor.go:CreateExecution"])
prop("C63", "A recorded value is the total value in token0, rounded down",
     "For square root prices below 2^128 and a total value below 2^256 the recorded value is amount0 + amount1/price rounded down, with price = (sqrtPriceX96/2^96)^2; above, the square wraps and the value is wrong.",
     "all amounts and prices",
     "256-bit inputs",
     ["lib/executor/executor.go:Run"])
prop("C64", "The reported standard deviation is the sample standard deviation of log returns",
 "calculateStd returns sqrt(sum (r - mean)^2 / (n - 1)) over the log returns r of neighbouring values, and 0 for fewer than three values; the number under the root is never negative (real arithmetic).",
 "all series of positive values", "Unbounded series; a shortcut formula is used instead of the definition.",
 ["main.go: calculateStd, getReturns"])
prop("C65", "The downward deviation measures losses only",
 "calculateDownDeviation returns the root of the mean over all returns of min(r,0)^2 (real arithmetic); it is 0 for fewer than three values, and otherwise exactly if no value is smaller than its predecessor.",
 "all series of positive values", "Unbounded series.",
 ["main.go: calculateDownDeviation, getReturns"])
prop("C66", "The value at risk is the 5% quantile of the log returns",
 "calculateVar returns one of the n log returns, with at most n/20 returns strictly below it and more than n/20 at or below it, and 0 for fewer than three values; it never panics.",
 "all series of positive values", "Unbounded series.",
 ["main.go: calculateVar, getReturns"])
prop("C67", "The reported return is the relative change of value",
 "For a positive first value the float64 return is within 2^-50 (1 + last/first) of (last - first)/first, at least -1 and of the right sign; for a zero first value it is NaN or +Inf.",
 "all pairs of 256-bit values", "2^512 pairs; float rounding.",
 ["main.go: createResult"])
prop("C68", "A report labels its numbers correctly",
 "After a run, the report exists (no panic), carries the parameters of the run, the decimal text of the last recorded value, the return from the first to the last value and the drawdown of all values, and each hourly/daily/weekly statistic is computed from all, every 24th, every 168th recorded value.",
 "all finished runs", "Swapped or mislabelled arguments of the same type are invisible to the type checker and to spot checks with short series.",
 ["main.go: runAndAppend, createResult", "lib/result/result.go: RunResult"])
prop("C57", "The pool can always pay principal, owed amounts and fees",
 "Count the tokens that callers pay into a pool (mints, swap inputs, flash-loan fees) and the tokens it pays out (swap outputs, collected amounts, plain burns). After any history in which strategies keep to ranges that do not share a position record and burn no more than is recorded for them, the balance of each token covers the principal of all positions at the current price plus everything recorded as owed plus all fees earned and not yet credited; so it is never negative and every collect can be paid. The claim is false for two ranges that share a record: there one owner can collect the same fees twice.",
 "every pool made by NewPool with fee 500, 3000 or 10000, every list of ranges with distinct position keys, every history of admissible operations without sales of token0 at ticks with a broken downward search",
 "The balance depends on all earlier roundings, fee accruals, tick crossings and wrap-arounds of the growth counters; a test fixes one history.",
 ["lib/pool/pool.go:MintStrategy", "lib/pool/pool.go:BurnStrategy", "lib/pool/pool.go:CollectStrategy", "lib/pool/pool.go:Flash", "lib/pool/pool.go:swap", "lib/position/position.go:Update", "lib/tickdata/tickdata.go:GetFeeGrowthInside"])
prop("C69", "Bitwise operations, byte extraction, sign extension and lengths agree with the binary representation",
 "And, Or, Xor and Not act bit by bit on the 256-bit number; BitLen and ByteLen are the least numbers of bits and bytes that hold it; Uint64WithOverflow returns the low 64 bits and reports exactly the values that do not fit; Byte(n) is the n-th byte of the 32-byte big-endian representation and 0 for n >= 32; ExtendSign(x,k) is the two's complement reading of the k+1 lowest bytes, and x for k >= 32.",
 "all 256-bit values and all 256-bit indices",
 "Limb and byte boundaries give a different code path for each of the 32 positions, and each path ranges over all bit patterns.",
 ["uint256/uint256.go: And, Or, Xor, Not, BitLen, ByteLen, Uint64WithOverflow, Byte, ExtendSign, isBitSet", "uint256/mod.go: leadingZeros"])
prop("C70", "Modular multiplication is exact and terminates",
 "MulMod(x,y,m) returns x*y mod m for every m != 0, with the product taken over the integers, and 0 for m = 0. Reciprocal(m) is 0 below 2^192 and otherwise floor(2^512/m) or at most two less; MulModWithReciprocal is exact with that value. No call panics or loops forever.",
 "all triples of 256-bit values; all reciprocals within two units of the exact one",
 "The reciprocal is computed by hand-scheduled Newton steps of growing width and the quotient is corrected by a loop; the extreme cases of the error bounds are hit by a negligible fraction of inputs.",
 ["uint256/mod.go: Reciprocal, reduce4", "uint256/uint256.go: MulMod, MulModWithReciprocal"])
prop("C71", "Results may be written over operands",
 "Each method z.Op(x, y, ...) of the 256-bit type that stores its result in z leaves the same value in z whichever of z, x, y (and the modulus m) are the same number, namely the result for the values the operands had before the call, and changes no other number: Add, Sub, Neg, Mul, Squared, Div, Mod, SDiv, SMod, Abs, AddMod, MulMod, Lsh, Rsh, SRsh, And, Or, Xor, Not, Byte, ExtendSign, Exp, Sqrt, Set and the overflow-reporting variants.",
 "all memory contents and all choices of the pointers, including every coincidence between them",
 "A word-by-word method that overwrites a word it still needs is right for every test with separate numbers; the aliasing patterns multiply with the code paths (word shifts, lengths) and with the values.",
 ["uint256/uint256.go: all methods on *Int that set z", "uint256/mod.go: reduce4"])
prop("C72", "The amounts of a swap are exactly those of its price path",
 "A swap that returns has moved the price from the old to the new value along legs, each ending at a tick, at the limit or when nothing remains. On each leg the active liquidity is constant; its input is the input needed for the price move rounded up, its output the output of the price move rounded down (an exact output is never exceeded), its fee the fee rate rounded up, or all that remains when the leg stops between ticks, and then the price went as far as the input allows and no further than the requested output needs. The trader pays the sum of the inputs and fees and receives the sum of the outputs. In particular an exact input yields at most one unit per iteration less than the price move frees, and an exact output costs at most the need of the price move plus fee plus two units per iteration.",
 "every reachable pool, every amount below 2^160 (of either sign), limit and direction for which swap returns (sales of token0 at ticks with a broken downward search excluded)",
 "The result is an unbounded sum over tick crossings; a dropped or doubled leg, or rounding the wrong way on one branch, changes it by an amount no spot check of one swap reveals.",
 ["lib/pool/pool.go: swap, ExactInputSwap, ExactOutputSwap", "lib/swapmath/swapmath.go: ComputeSwapStep", "lib/tickdata/tickdata.go: NextInitializedTickWithinOneWord"])
prop("C73", "Nobody makes a profit by trading back and forth",
 "While the liquidity stays as it is, no sequence of swaps, by one or many traders, in any order, direction and mode, ends with the traders having paid nothing of either token in total and received something. Traders who leave the price where it was or higher have not gained token1; traders who leave it where it was or lower have not gained token0.",
 "every reachable pool and every sequence of admissible swaps (sales of token0 at ticks with a broken downward search excluded)",
 "A statement about all sequences of trades; one unit of rounding in favour of the trader on any path would be an arbitrage that repeats.",
 ["lib/pool/pool.go: swap, ExactInputSwap, ExactOutputSwap", "lib/swapmath/swapmath.go: ComputeSwapStep"])
prop("C74", "A swap depends on the market, not on its history",
 "Two pools with the same fee rate, price, tick and outstanding liquidity in every range answer every swap identically: the same amounts of both tokens or the same error, and they remain the same market. The order of mints and burns, how a deposit was split, earlier swaps, fees collected and recorded positions make no difference.",
 "every two reachable pools that agree on fee rate, price, tick and outstanding liquidity; every direction, amount (positive or negative) and price limit",
 "A statement about all pairs of histories: stale entries left in the tick table or a liquidity counter that depends on the order of deposits only shows for particular histories.",
 ["lib/pool/pool.go: swap, modifyPosition, Mint, Burn", "lib/tickdata/tickdata.go: TickData"])
prop("C75", "A larger trade costs more, pays more and moves the price further",
 "Of two swaps on the same pool in the same direction, mode and price limit, the one for the larger amount takes at least as much of the token sold, pays at least as much of the token bought, and ends at a price at least as far from the starting price in the same direction.",
 "every reachable pool, both directions, exact input and exact output, every pair of amounts below 2^160 and every limit, whenever both swaps return (sales of token0 as admissible in C27)",
 "A comparison of two runs of unbounded length that may cross different numbers of ticks; rounding at the end of the shorter run could overtake the longer one for a single amount in 2^160.",
 ["lib/pool/pool.go: swap, ExactInputSwap, ExactOutputSwap", "lib/swapmath/swapmath.go: ComputeSwapStep", "lib/sqrtprice_math/sqrtprice_math.go: GetNextSqrtPriceFromInput, GetNextSqrtPriceFromOutput"])
prop("C76", "Passing numbers around is safe",
 "Every number is a pointer to four words, and every method writes through its receiver. Still, no call on a pool changes an amount or a limit passed to it, an amount returned by an earlier call, a shared constant or the shared table of prices: a number a caller holds changes only when the caller assigns to it. Whatever numbers a caller passes - the same number twice, a returned amount, a number assigned to since - the results are the same as if every call got fresh copies. The one exception is the price given to NewPool: the pool keeps that pointer, and assigning to it changes the pool's price.",
 "every program of calls (numbers, assignments, NewPool, Clone, Mint, Burn, MintStrategy, BurnStrategy, CollectStrategy, Flash, both swaps) by one caller, of any length, up to the end or to a panic; pools cloned while they have no ticks; no assignment to a number given to NewPool",
 "An in-place update of a shared constant or of an argument corrupts later calls far from the bug, and only for the particular way a caller reuses its numbers; all ways of aliasing over all programs cannot be enumerated.",
 ["lib/pool/pool.go: Pool, NewPool, Clone, Mint, Burn, MintStrategy, BurnStrategy, CollectStrategy, Flash, ExactInputSwap, ExactOutputSwap", "lib/tickdata/tickdata.go: TickData", "lib/position/position.go: Info", "lib/swapmath/swapmath.go: ComputeSwapStep", "lib/sqrtprice_math/sqrtprice_math.go", "lib/fullmath/fullmath.go", "lib/constants/constants.go", "uint256/uint256.go: Int"])
prop("C77", "Simulations that share their inputs do not disturb each other",
 "Every simulation gets pointers to the same starting pool, the same starting amounts and the same list of transactions, and strategies update balances, positions and price histories in place. Still, a batch of simulations of any of the twelve strategies gives each simulation the result it has when it runs alone on private copies - the same recorded values, final balances and final pool, or the same panic - and the transactions, the starting amounts, the price and the shared constants are unchanged afterwards.",
 "every memory that holds the constants, every transaction list (numbers may be shared between transactions, amounts and constants), every list of simulations with any parameters, of any length, up to the end or to a panic",
 "A strategy that kept or updated a shared number would corrupt the following simulations only for particular prices and strategy combinations, and every result would still look plausible; tests run one simulation on fresh inputs.",
 ["main.go: main", "lib/executor/executor.go: CreateExecution, Run", "lib/strategy: all constructors, Init, Rebalance, BurnAll, GetAmounts, MakeSnapshot", "lib/prices/prices.go: Prices", "lib/pool/pool.go: Clone"])
prop("C78", "Simulations that run at the same time do not disturb each other",
 "The program runs thousands of simulations in parallel on the same memory. Whatever the scheduler does, down to the single word of a number, no two goroutines ever compete for the same number or the same result, one of them writing; the inputs stay unchanged at every moment; the saved result of every simulation is the report it gives when it runs alone on private copies; the program panics only if a simulation panics alone; and it always reaches the point where the results are saved.",
 "every schedule, interleaving single word accesses of all goroutines including the main goroutine that constructs the next strategies meanwhile; every memory, transaction list, number of simulations, batch size and choice of strategies",
 "Races appear only under particular interleavings of millions of word accesses; a test run sees one schedule, and a torn number gives a plausible wrong report.",
 ["main.go: main, runAndAppend", "lib/executor/executor.go: CreateExecution, Run", "lib/strategy: all constructors, Init, Rebalance, BurnAll, GetAmounts, MakeSnapshot", "lib/pool/pool.go: Clone", "uint256/uint256.go: Int"])
prop("C79", "The tick computed from the logarithm is the tick of the table",
 "The library has two ways to find the tick of a price: a fourteen-bit binary logarithm with two correction constants, and a binary search in the table of prices. For every valid price they find the same tick: the greatest one whose price does not exceed it.",
 "every price from the least to just below the greatest",
 "There are more than 10^48 prices; the logarithm is off by up to 0.85 of a tick before the correction, and a constant wrong in its last digits fails only for prices next to a tick.",
 ["lib/tickmath/tickmath.go: getTickAtSqrtRatio, GetTickAtSqrtRatio, MostSignificantBit, getSqrtRatioAtTick"])
prop("C80", "Calls on positions fail exactly in the stated situations",
 "In every reachable state Mint returns exactly for a positive amount and a valid range, Burn exactly for a valid range, and CollectStrategy exactly if the range has a record. MintStrategy and BurnStrategy moreover need that the fees earned on the record since its last use can be credited: for each token the product of the record's liquidity and the growth is zero or at least 2^64 and below 2^448. MintStrategy fails too if a token0 amount at a price above 2^32 is smaller than one word. Hence a position that is tiny compared with the pool cannot be closed, or added to, after a small swap; a position of at least 2^64 always can.",
 "every reachable pool, every range, every amount; for MintStrategy amounts that keep the total liquidity below 2^128, for BurnStrategy zero and amounts up to the outstanding liquidity of the range",
 "The failing inputs lie in a narrow band between no fees at all and enough fees, in a state reached by a swap; a test that closes a normal position never meets it.",
 ["lib/pool/pool.go: Mint, Burn, MintStrategy, BurnStrategy, CollectStrategy, modifyPosition, modifyPositionStrategy", "lib/position/position.go: Info.Update", "lib/fullmath/fullmath.go: MulDiv", "uint256/uint256.go: Udivrem"])
prop("C81", "A strategy can be liquidated",
 "In every state of every run of every strategy the record of a range holds exactly the liquidity of the strategy's open positions on this range. BurnAll returns exactly if the fees of every position can be credited (positions on different ranges), and it returns whenever every position holds at least 2^64. It can fail otherwise: a small strategy beside a large liquidity provider cannot be liquidated after a small swap.",
 "every run of every strategy, with any trades of others in between",
 "Whether the liquidation at the end of a simulation returns depends on the whole history of prices and fees.",
 ["lib/strategy/*.go: BurnAll", "lib/pool/pool.go: BurnStrategy, CollectStrategy", "lib/position/position.go: Info.Update"])
prop("C82", "The statistics survive floating point",
 "For every series of positive values (at most 2^31 of them) the statistics that main computes in float64 are close to the exact ones: the value at risk is within 2^-44 of the 5% quantile of the log returns, the downward deviation within 2^-43 plus n*2^-51 of its size, and the standard deviation within 2^-41 plus sqrt(n)*2^-23 times the size of a typical return. The standard deviation is never infinite and is NaN only if the exact one is below this tolerance. NaN does occur: for a value that doubles at every snapshot. The only assumption on math.Log is an error of at most one unit in the last place.",
 "every series of positive 256-bit values, every logarithm accurate to one unit in the last place",
 "Rounding errors accumulate over thousands of returns and cancel in the variance; a sample series shows neither the worst case nor the series for which the radicand turns negative.",
 ["main.go: getReturns, calculateStd, calculateDownDeviation, calculateVar, runAndAppend"])
prop("C83", "The results file holds all results or none",
 "The file holds every result in order, with the start amount and the two times, if all numbers of all results are finite, and is empty otherwise: one NaN or infinite number in one result loses the results of all runs. All numbers are finite if the value is positive in all snapshots of all runs and the returns are spread more widely than the tolerance of C82. If the value is zero in one of three or more snapshots of one run, the file is empty.",
 "every list of results, every run",
 "The loss happens only for particular series of values, and the error of the encoder is dropped without a message.",
 ["main.go: saveFile, runAndAppend, createResult", "lib/result/result.go: Save, RunResult"])
prop("C84", "Splitting a trade does not pay",
 "Whoever swaps an amount at once gets at least as much, and pays no more, as whoever swaps it in two parts one after the other with the same price limit. For exact input the single trade moves the price at least as far, for exact output no further. This holds unless the first part, sold as token1, leaves the price at a negative tick inside the last spacing before the end of a word of the tick store: from there the search skips the end of the word, and there are pools in which splitting then pays. When token0 is sold as exact input the amount must be below 2^95.",
 "every reachable pool, both directions, both modes, every price limit, every pair of amounts for which the three swaps return",
 "Both trades round at every segment they cross; whether the roundings add up in the trader's favour depends on where the first part ends.",
 ["lib/pool/pool.go: swap, ExactInputSwap, ExactOutputSwap", "lib/swapmath/swapmath.go: ComputeSwapStep", "lib/tickdata/tickdata.go: NextInitializedTickWithinOneWord"])
prop("C85", "The order of liquidity changes between trades does not matter",
 "Mints carried out between two trades, with or without position records, give the same pool in every order, or fail in every order; so do burns that together take no more than each range holds. A mint and a burn may be exchanged unless one of them leaves a boundary they share without liquidity: then the fee growth stored there is forgotten in one order and kept in the other. Two mints on one range give the pool of one mint with the sum and cost at most one unit of each token more; two burns give the pool of one burn and return at most one unit of each token less.",
 "every reachable pool, every list of mints or of burns and every permutation of it, every pair of changes; amounts that keep the total below 2^128; records of different ranges have different keys",
 "The number of orders grows factorially, and whether they agree depends on which ranges share boundaries and on fees collected before.",
 ["lib/pool/pool.go: Mint, Burn, MintStrategy, BurnStrategy, modifyPosition, updatePosition", "lib/tickdata/tickdata.go: UpdateTick, ClearTick", "lib/position/position.go: Update"])
prop("C86", "Exactly what the strategies buy",
 "Init and Rebalance follow a documented plan: the positions opened, their liquidity and the balances left over are those of buying the documented ranges one after another, each with the liquidity GetLiquidityForAmount computes for the balances of the moment (one half of it for limit orders), leaving out purchases whose balance is zero and positions of liquidity zero, and paying for each the exact value rounded up. The fill-up strategies put what is left of token0 above the tick, or of token1 below it if no token0 is left. The swapping strategy first sells one half of what a position would leave, of token0 if 512 times its rest exceeds the rest of token1, of token1 otherwise. For the other strategies nothing else of the pool matters: two pools with the same fee, price and tick get the same positions.",
 "every state of every run of the twelve strategies, every price, tick, history and balances; parameters for which the tick rounding is exact; liquidity in total below 2^128; the swapping strategy within the limits of its swap",
 "The amounts depend on the exact price, on both balances after each purchase, and on the rounding of every step.",
 ["lib/strategy/*.go: Init, Rebalance, mintPosition, mintHalf, setPositions", "lib/liquidity_amounts/liquidity_amounts.go: GetLiquidityForAmount, GetAmountsForLiquidity"])
prop("C87", "Exactly when the strategies can open their positions",
 "Init of a strategy that does not swap returns exactly if its documented plan can be followed with its balances, every position the plan prescribes can be opened after the ones before it, and, for the constant interval and the interval around the price, there is at least one position to open. Rebalance returns exactly if BurnAll returns and the same holds for the balances and the pool after it (only Init panics with nothing to open). A position can be opened if its ticks form a range within the global range, its token0 amount can be computed and the fees earned so far on the record of its range can be computed; while the strategy has no position, and after BurnAll, no record has liquidity, so the last condition concerns only positions that share a record. GetLiquidityForAmount returns exactly if no quotient in it has a numerator at least five words longer than its divisor, in particular for all token0 amounts below 2^96 and token1 amounts below 2^224.",
 "every state of every run of the eleven strategies that do not swap, every price, tick, history and balances; parameters for which the tick rounding is exact; liquidity in total below 2^128 after the call",
 "Whether a call panics depends on the lengths in words of exact intermediate products and on records shared by several ranges; no sample of pools shows that there is no other way to fail.",
 ["lib/strategy/*.go: Init, Rebalance, mintPosition, mintHalf, setPositions", "lib/pool/pool.go: MintStrategy", "lib/liquidity_amounts/liquidity_amounts.go: GetLiquidityForAmount"])
prop("C88", "Exactly when a sale of token0 returns",
 "Call a multiple of 256 tick spacings at or below tick zero a wall. A swap that sells token0 with a limit below a wall below the current price does exactly what the same swap limited to the price of the wall does, if that trades the whole amount, and otherwise runs for ever. So for every pool there is a largest amount: if some swap limited to the wall stops there, the swaps that ask for no more than it traded return and all larger ones run for ever, for an exact input and for an exact output. On a wall every sale of token0 runs for ever; less than one spacing below a wall it returns exactly if the amount is used up by the time the price has risen to the wall. A swap in either direction that stops at its limit before the whole amount is traded has the same result and leaves the same pool as every swap of a larger amount with that limit, and the number of loop iterations allowed matters only if it is too small.",
 "every reachable pool with liquidity, every amount below 2^160 of either sign, every valid limit, every wall and every number of loop iterations; prices below 2^128 where a swap must not panic",
 "That a call never returns cannot be observed, and the largest amount that can be sold depends on the whole liquidity profile.",
 ["lib/pool/pool.go: ExactInputSwap, ExactOutputSwap, swap", "lib/tickdata/tickdata.go: NextInitializedTickWithinOneWord"])
prop("C89", "The gains of a strategy are paid by the others",
 "At every point of a run of a strategy its balances, the exact value of its positions at the current price, the exact value of the liquidity of all others and all its uncollected fees together are at most the balances it started with plus the tokens that the others have paid into the pool minus what they have got out of it, for each token. So what BurnAll returns, together with the exact value of the liquidity that the others still have, is at most that, and the gain of a strategy in a token is at most what the others have paid in. For a run of the executor: the amounts whose value is recorded at the end are at most the starting amounts plus what the transactions have paid in, less the exact value of the liquidity they leave. All this holds if no two ranges the strategy uses share a position record; a fill-up strategy below tick zero whose two ranges share one gets more than 2^150 of both tokens after the others have paid a fee of 3000.",
 "every strategy with every starting balance on every new pool, every history of operations of the others, price records, Init, Rebalance and BurnAll; every run of the executor; the ranges of the strategy must have separate position records, and downward swaps must not start where the tick search is broken",
 "A back test is only meaningful if the strategy cannot be paid from nowhere; this is a statement about all histories, and no example shows that a simulated profit has a payer.",
 ["lib/strategy/*.go: Init, Rebalance, BurnAll, mintPosition", "lib/executor/executor.go: Run", "lib/pool/pool.go: MintStrategy, BurnStrategy, CollectStrategy"])
prop("C90", "Opening and moving positions costs rounding only",
 "If a strategy that does not swap starts or rebalances, the price of the pool stays where it is and the amounts that GetAmounts reports afterwards are those it reported before plus the fees it has earned, never more, and less by at most one unit per token for every position it opens, of which there are at most three. For the swapping strategy: valued at the price before its swap, the amounts GetAmounts reports after Init or Rebalance are worth at most what the strategy held before the swap.",
 "every point of every run of every strategy at which Init or Rebalance returns; parameters within 2^30; all liquidity within 2^128; for Rebalance the ranges of the strategy must have separate position records; balances that do not overflow 256 bits; the swapping strategy calls Init without positions, with balances below 2^160, and does not swap where the tick search is broken",
 "A rebalance that gains or loses value by itself would distort every back test a little at a time; whether it does depends on the price, the range and the balances, and only a proof covers all of them.",
 ["lib/strategy/*.go: Init, Rebalance, mintPosition, BurnAll, GetAmounts", "lib/pool/pool.go: MintStrategy, BurnStrategy, ExactInputSwap"])
prop("C91", "No trade beats the market price",
 "No swap gets a better price than the price of the pool before it: valued at that price, the amount bought is worth at most the amount sold less the fee. No sequence of swaps, by any number of traders in any order, gains when valued at the price before it, as long as the liquidity stays as it is. In the other direction, an exact input that stops at its price limit gets at least the price of the pool after it for the amount sold less the fee, except for two units of the token sold and one of the token bought per iteration.",
 "every reachable pool with any positions, every direction, every amount below 2^160 and every price limit; every sequence of swaps; downward swaps that do not start where the tick search is broken",
 "Price improvement would be an arbitrage; it may occur for a special liquidity profile, a rounding at a tick or a long sequence of trades, so examples cannot exclude it.",
 ["lib/pool/pool.go: swap, ExactInputSwap, ExactOutputSwap", "lib/swapmath/swapmath.go: ComputeSwapStep"])
prop("C92", "Without fees, holding is at least as good as providing liquidity",
 "What burning a position pays is worth at most what the position cost, at the price of the burn, whatever the price did in between. For a strategy: what GetAmounts reports later, while it keeps its positions and others trade, is worth at most what it reported before, at the later price, except for one unit of each token per position. If it starts or rebalances with c and does not swap, the amounts reported at any later time are worth at most c at the price of that time, and what BurnAll pays is worth at most c plus the fees earned.",
 "every pair of reachable pools for one position; every run of every strategy, with Init called without positions, and every later history of operations of others; all liquidity within 2^128, balances below 2^255; for BurnAll the ranges of the strategy must have separate position records",
 "Impermanent loss is what a back test measures; that it has the right sign for every price path, range and rounding is a convexity statement over all prices.",
 ["lib/pool/pool.go: MintStrategy, BurnStrategy", "lib/strategy/*.go: Init, Rebalance, GetAmounts, BurnAll"])
prop("C93", "A swap is not affected by liquidity it does not reach",
 "If two pools have the same fee rate, price and tick and differ only in the liquidity of ranges that the swap misses - for a sale of token0: ranges above the tick it starts at or below the price it ends at, for a purchase the other way round - then the swap pays and takes the same amounts in both, ends at the same price, tick and active liquidity, and adds the same fees per unit of liquidity. In particular, mints, burns, collects and flash loans of others elsewhere make no difference. For exact input it suffices that the swap misses these ranges in the first pool; for exact output it must miss them in both, and an example shows that one does not suffice: asking for exactly what is available up to a tick ends at that tick if it is initialized and before it otherwise.",
 "every pair of reachable pools, every amount and price limit, both directions and both kinds of swap; every sequence of mints, burns, collects and flash loans outside the reach of the swap; sales of token0 that do not start where the tick search is broken, and for the exact-input part amount times price below 2^255; both swaps return (for exact input the second follows from the first if there is any liquidity, for sales at prices below 2^128)",
 "The swap loop walks over initialized ticks, so a deposit far away changes the number and the targets of its iterations; that the result does not depend on them must hold for all positions of all other users.",
 ["lib/pool/pool.go: swap, Mint, Burn, MintStrategy, BurnStrategy, Flash", "lib/tickdata/tickdata.go: NextInitializedTickWithinOneWord", "lib/swapmath/swapmath.go: ComputeSwapStep"])
prop("C94", "A narrower range buys more liquidity and earns more fees",
 "The same balances buy at least as much liquidity on a range inside another range as on the outer one, wherever the price is, as long as the price or the lower end of the inner range is at least 2^56 (2^-40 as a number); below, the inner range can buy nothing where the outer one buys something. Larger balances buy at least as much liquidity. Two positions that are in range together earn the same fees per unit of liquidity: each gets its liquidity times the growth of the fees of the pool, so their fees are in proportion to their liquidity up to one unit. Hence of two positions bought with the same balances at the same price, the one on the inner range earns at least as much of each token while the tick stays in it, whichever was opened first.",
 "every price, every pair of nested ranges, all balances (results fit 256 bits); every reachable pool, and every sequence of swaps, mints, burns, collects and flash loans of others during which the tick stays in the inner range",
 "The liquidity is computed with two nested floors and the fees from differences of modular accumulators; that rounding never turns the order around must hold for all prices, ranges and histories.",
 ["lib/liquidity_amounts/liquidity_amounts.go: GetLiquidityForAmount", "lib/pool/pool.go: MintStrategy, BurnStrategy, CollectStrategy, swap, Flash", "lib/position/position.go: Update", "lib/tickmath/tickmath.go: GetSqrtRatioAtTick"])
prop("C95", "Exactly when a run returns",
 "The times of the transactions and the settings of an execution determine its schedule. A run returns exactly if the events of that schedule (start, price snapshot, value snapshot, rebalance, transaction) can take place one after another, the strategy can be liquidated after them, and every value to be recorded can be computed; the result is then the outcome of these events. It fails exactly if one of them fails after the ones before it have taken place, and in the same way: by a panic, or by running for ever. There is no third way: every run returns one result, panics, or runs for ever. A value can be computed whenever the square root price is between 2^32 and 2^128 and there is less than 2^192 of token1; at the price 2^128 no amount of token1 has a value and the run panics. Recording the value of a running strategy fails for no other reason. A run of the strategy that only holds returns exactly if the replay of the transactions on the pool does.",
 "every execution (all strategies, pools, times, intervals and transactions whose times stay in the range of int); every outcome",
 "Whether a simulation of months of data ends with a result, a panic or never depends on every event of it; tests show single runs that end.",
 ["lib/executor/executor.go: Run, getPoolValueInUSD", "lib/strategy/strategy.go: Strategy", "lib/pool/pool.go: Mint, Burn, Flash, ExactInputSwap"])
prop("C96", "Runs do not look ahead",
 "What a run records up to some transaction does not depend on the transactions after it, nor on the end time. If a run returns, then a run with the same strategy and settings whose transactions are the first ones of it records the same values up to its end, in the same order, and differs only by the final liquidation; it returns exactly if that liquidation succeeds. Two runs whose transactions begin in the same way and then differ have recorded the same values up to there. Transactions after the first one later than the end time have no influence at all.",
 "every pair of executions with the same strategy, start time and intervals and a common beginning of the transactions; all strategies and pools",
 "Look-ahead bias is the classic error of back-testing; showing its absence needs a comparison of all pairs of histories with a common beginning.",
 ["lib/executor/executor.go: Run", "lib/strategy/strategy.go: Strategy"])
prop("C97", "The averages of the strategies are those of the last prices",
 "The strategies with an average use the prices of the pool at the price snapshots of the run, in their order, and nothing else: starting, rebalancing, value snapshots and the transactions of others neither add nor lose prices. The average is the mean of the squares of the last n of them (square root prices, so the mean of the prices); as long as there have been fewer than n snapshots the missing ones count as zero. Hence after n snapshots the interval around the average is centred between the lowest and the highest tick of the last n prices, and a Bollinger band overlaps that range; after only k of n snapshots the price at the centre is at most k/n of the highest price seen, so the interval is opened below the market. After n equal prices the interval is centred at their tick and the Bollinger band is empty. Before the first snapshot starting panics; so every run that starts at its first transaction panics with these strategies. A snapshot panics exactly if the square of the price, in 256 bits, has more than 230 bits.",
 "every strategy with a price history of 1 to 2^26 prices, every pool, every sequence of events of a run; all prices below 2^128",
 "The ring buffer is shared by snapshots, Init and Rebalance over the whole run; which prices enter an average depends on the complete history of events.",
 ["lib/prices/prices.go: Add, Average, Volatility", "lib/strategy/interval_around_average.go: MakeSnapshot, getTicks", "lib/strategy/bollinger_bands.go: MakeSnapshot, getTicks", "lib/strategy/bollinger_fill_up.go", "lib/strategy/volatility_sized_intervals.go", "lib/executor/executor.go: Run"])
prop("C98", "A deeper market moves less",
 "Two pools have the same fee rate, price and tick, and the second has at least as much liquidity in every range. Then the same exact-input swap moves the price of the second no further than that of the first, exactly and despite all rounding, and the second takes at least as much of the input; a swap that returns in the first returns in the second (sales at prices below 2^128). So deposits, in whatever ranges and by whomever, never increase the price impact of a swap, and withdrawals never decrease it. For exact output this fails by rounding (a counterexample is proved).",
 "every two pools reachable by admissible operations, every positive amount below 2^160, every limit and direction; for sales of token0 the downward search works at the tick and amount times price is below 2^255; for purchases no range of the deeper pool begins or ends at a tick from which the upward search skips a word (so in particular if its ranges are aligned)",
 "The two swaps cross different ticks and round at different prices in each leg; only an argument about all legs shows that the roundings never add up in favour of the deeper pool.",
 ["lib/pool/pool.go: swap, Mint, MintStrategy, Burn, BurnStrategy", "lib/swapmath/swapmath.go: ComputeSwapStep", "lib/tickdata/tickdata.go: NextInitializedTickWithinOneWord"])
prop("C99", "What a run reads of its input",
 "The outcome of a run (the recorded values, the strategy and the pool at the end, or the way it fails) depends on a transaction only through its type, its time and what a transaction of this type is about: range and liquidity of a mint or burn, the amounts of a flash, the amount paid in of a swap. The recorded identifier, price, tick and number format have no effect. If all times (of the transactions, the start and the end) are moved by the same amount, the outcome stays the same for every strategy that keeps no prices; for the others it does if all times are later than the number of transactions times the price interval. Otherwise it may change, because price snapshots fall due from the absolute time zero on (a counterexample is proved).",
 "every execution, every list of transactions, every strategy, every number of loop iterations; for the shift in time all times and due times stay in 64 bits",
 "That a field is never read, or that only differences of times matter, is a statement about pairs of runs over all inputs; tests compare a few runs.",
 ["lib/executor/executor.go: Run", "lib/transaction/transaction.go: Transaction", "lib/strategy/strategy.go: Strategy"])
prop("C100", "Providing liquidity is trading at the geometric mean of the prices",
 "If liquidity is minted on a range at one price and burned at another, the change of the two tokens balances at the geometric mean of the two prices, each limited to the range: at that price the principal paid back is worth no more than what was paid, and less by fewer than two units of each token. In particular a range above the price is an order to sell token0: it costs token0 only, pays back the same (up to one unit) as long as the price has not entered the range, and once the price has passed the range it pays token1 only, at the geometric mean of the prices at its ends up to one unit of each token; a range below the price is an order to buy, likewise. Fees come on top.",
 "every two pools reachable by admissible operations (so whatever happens between the mint and the burn), every range and every liquidity below 2^128",
 "The fill price of an order depends on two prices, a range and an amount, with four independent roundings; tests check a few fills.",
 ["lib/pool/pool.go: MintStrategy, BurnStrategy, modifyPositionStrategy", "lib/sqrtprice_math/sqrtprice_math.go: GetAmount0DeltaRounded, GetAmount1DeltaRounded", "lib/strategy/limit_order.go: LimitOrderStrategy"])
prop("C101", "Quotes for exact input and for exact output agree",
 "If a swap that asks for an exact output costs some input, then a swap of that input pays at least that output, and a swap of any smaller input pays no more than it. If a swap of an exact input pays some output, then asking for any smaller output gets all of it and costs no more than that input. In both cases the price moves accordingly far. Asking for exactly the output paid may cost more (a counterexample is proved): it goes on to the next tick if nothing more is to be had up to it.",
 "every reachable pool, every pair of an exact-input and an exact-output swap in the same direction with the same limit, amounts below 2^160; sales of token0 at a tick where the downward search is broken only if no range boundary lies between the tick and the next multiple of 256 spacings; for the part on paying at least as much when token0 is sold, amount times price below 2^255",
 "The two kinds of swap compute the next price by different formulas with opposite roundings in every step; tests compare them for a few amounts.",
 ["lib/pool/pool.go: ExactInputSwap, ExactOutputSwap, swap", "lib/swapmath/swapmath.go: ComputeSwapStep", "lib/sqrtprice_math/sqrtprice_math.go: GetNextSqrtPriceFromInput, GetNextSqrtPriceFromOutput"])
prop("C102", "What the settings of a run influence",
 "Recording values does not influence what is measured: runs that differ only in the interval of the value snapshots, if they return, end with the same strategy, pool and last value, and if the run that records a value at every transaction returns, all others return and record some of its values in the same order. The interval of the price snapshots matters only to strategies that keep prices (for one of them it is shown to matter), the update interval does not matter to the strategy that provides nothing, and of the start and end times only matters which transactions lie before and after them.",
 "every execution with any strategy, pool and transactions, every pair of interval values; for the comparison with a value at every transaction, transactions in the order of time within 64-bit range",
 "A measurement that disturbs what it measures shows only for particular combinations of intervals and transaction times.",
 ["lib/executor/executor.go: Run", "lib/strategy/no_provision.go: Rebalance", "lib/strategy/strategy.go: Strategy"])
prop("C103", "A range is worth its parts",
 "A position on a range and two positions with the same liquidity on its lower and its upper part are worth the same. At one price the parts cost as much as the whole, or one unit of each token more; withdrawn at one price the whole gives as much as the parts, or one unit of each token more; and opened together and left alone, whatever anybody else does to the pool, the whole has earned the fees of its parts, or one unit of each token more.",
 "every range and every point that divides it, every liquidity, reachable pools at one price for cost and principal; for fees every reachable pool in which the three positions are fresh and every later history that does not touch them, up to a full turn of a fee counter",
 "A mistake at the common end of the two parts shows only when the price crosses or rests on that very tick, in one direction, with a particular history of fees on both sides.",
 ["lib/pool/pool.go: MintStrategy, BurnStrategy, CollectStrategy, modifyPositionStrategy", "lib/tickdata/tickdata.go: GetFeeGrowthInside, Cross", "lib/sqrtprice_math/sqrtprice_math.go: GetAmount0Delta, GetAmount1Delta"])
prop("C104", "A higher fee is never better for the trader",
 "Take the same pool at two fee rates, with everything else equal. The same exact-input swap pays out at least as much at the lower rate and moves the price at least as far. The same exact-output swap pays out the same and moves the price to the same place at both rates, and at the lower rate it costs no more.",
 "every reachable pool, every pair of fee rates from 0 to below one hundred percent put into its fee field, every amount (inputs below 2^160), direction and price limit; for sales of token0 the downward search must not skip the ranges above the tick",
 "Rounding of the fee and of the amounts goes up and down from step to step; that the sum over all steps of any swap never favours the higher fee cannot be seen from samples.",
 ["lib/pool/pool.go: swap, ExactInputSwap, ExactOutputSwap, Pool", "lib/swapmath/swapmath.go: ComputeSwapStep"])
prop("C105", "The numbers of a report fit together",
 "The statistics do not depend on the unit in which the values of a run are expressed (the drawdown only by float64 rounding). If a series of values goes on, its maximum drawdown can only get worse. And in every report of a run with positive values the maximum drawdown is at least as bad as the return of the whole run and as the change of value that each of the three values at risk stands for, up to float64 rounding.",
 "all series of 256-bit values of any length; for the report every execution that returns with positive values",
 "These are relations between several numbers of a report over series of any length; a test sees a few series, and each number alone can look plausible.",
 ["main.go: calculateMaximumDrawdown, calculateStd, calculateDownDeviation, calculateVar, getReturns, createResult, runAndAppend"])
prop("C106", "What the limit order strategy reports",
 "After Init and after Rebalance of the limit order strategy, GetCurrentLimitTick is the far end of the last order the call placed and GetDirection says on which side of the current tick it lies: below the tick if token1 was left over, otherwise above if token0 was left over; if nothing was left over both answers stay as they were. The reported tick is 10 ticks and less than one spacing more away from the tick of the pool. BurnAll does not change the answers.",
 "all states of the limit order strategy that any sequence of its calls and of trades in its pool can reach, all widths up to 2^30",
 "The answers depend on which balance rounding leaves over after the first position, for every price and pair of balances; tests see a few.",
 ["lib/strategy/limit_order.go: GetCurrentLimitTick, GetDirection, setPositions, mintHalf, Init, Rebalance, BurnAll"])
prop("C107", "What a strategy earns depends on the market, not on its history",
 "Two strategies of the same kind with the same balances and settings start, without positions, in two pools that offer the same market: same tokens, fee rate, price and tick, and the same liquidity outstanding in every range. Make the same calls on both: swaps, mints, burns and flash loans of others in the pools, MakeSnapshot, Init, Rebalance and BurnAll of the strategies. After every call the two strategies have the same balances, positions, price history and pending fees, Rebalance and BurnAll have reported the same amounts, GetAmounts gives the same answer, and the pools still offer the same market - whatever happened in the pools before: fees collected, crossings, the order and the splitting of deposits, earlier positions of the strategies. So two runs of the executor with the same settings and transactions record the same values, if both return.",
 "all pairs of reachable states that meet the starting condition, all sequences of calls of any length within the limits of C34 that return on both sides, all twelve strategies",
 "The fee bookkeeping of a pool (global growth, growth outside each tick, records of positions) depends on its whole history; that the history cancels out is a statement about every pair of histories and every continuation.",
 ["lib/pool/pool.go: modifyPositionStrategy, updatePosition, getFeeGrowthInside, swap, Flash, CollectStrategy", "lib/strategy: Init, Rebalance, BurnAll, MakeSnapshot of all strategies"])
prop("C108", "The fuzz harness of the 256-bit library never reports a failure",
 "Fuzz returns normally on every input: 0 for fewer than 32 bytes, else 1. The checks of the two-operand methods (Div, Mod, Mul, Lsh, Add, Sub) and of the modular ones (MulMod, AddMod) return normally on every input that is long enough to be decoded: each method agrees with math/big modulo 2^256, leaves its operands unchanged when the receiver is another number, gives the same result over a receiver that holds garbage and over each of its operands, and returns its receiver. Conversely a check that finishes says, of any method whatever that touches no other numbers, that it returned its receiver and gave the result of math/big on this input in each of these runs, and left the operands unchanged in the runs with another receiver (for one operand: in the first run).",
 "all byte strings of any length, all memory contents; for the converse every method and reference function",
 "The harness itself is a test that tries some byte strings; that it never fails is a statement about all of them.",
 ["uint256/fuzz.go: Fuzz, fuzzUnaryOp, fuzzBinaryOp, fuzzTernaryOp, checkUnaryOp, checkDualArgOp, checkThreeArgOp", "uint256/uint256.go: Add, Sub, Mul, Div, Mod, Lsh, Sqrt, AddMod, MulMod"])
prop("C109", "Nothing that is paid into the pool is lost",
 "While all liquidity is minted, burned and collected through position records and no swap asks for an exact amount of the token in question, what the pool holds of that token exceeds the principal of all positions, the amounts owed and the fees not credited yet by rounding only: at most two units for every iteration of a swap, every flash loan and every change of liquidity, and one unit for every range. After all owners have burned and collected everything, at most two units per rounding are left. Without the restrictions this is false: an exact output of one token can leave 16000 tokens that belong to nobody, and the fees of plain mints stay in the pool for ever.",
 "all new pools, all histories of position calls, swaps and flash loans of any length, both tokens, any number of ranges with records of their own, cash below 2^128",
 "The bound is over all histories; a test can show one history without loss only.",
 ["lib/pool/pool.go: MintStrategy, BurnStrategy, CollectStrategy, Flash, ExactInputSwap, ExactOutputSwap", "lib/position/position.go: Update", "lib/tickdata/tickdata.go: GetFeeGrowthInside"])
prop("C110", "Floating point never overflows, underflows or yields a negative zero",
 "Computed in full IEEE 754 (signed zeros, overflow to infinity, subnormal numbers), the numbers of a report are exactly those of the simplified format in which C54, C67, C82 and C83 are stated, whatever the values of the strategy (zeros included): no step overflows, underflows or loses its sign. Each number of the report is NaN, an infinity, plus zero, or a number between 2^-300 and 2^300 in size; the file never holds -0. The same holds for the rounding of ticks, for every tick and every positive unit an int can hold, and so the statement of C17 holds in IEEE 754.",
 "all lists of up to 2^31 snapshot values, all logarithm functions that are accurate to one unit in the last place and return float64 numbers, all ticks and positive units",
 "Overflow, subnormal numbers and the sign of zero show only on rare inputs, and the bounds concern every intermediate result.",
 ["main.go: getReturns, calculateMaximumDrawdown, calculateDownDeviation, calculateVar, calculateStd, createResult", "lib/tickmath/tickmath.go: Round, Ceil, Floor"])
prop("C111", "How often fees are collected matters by rounding only",
 "The owner of a position collects its fees (BurnStrategy with amount 0, then CollectStrategy) at any times, while others use the pool without touching that position. What the owner receives in total up to a last collection is at most what was owed before plus the liquidity times the growth of the fees in the range, rounded down once, and less than that by at most one unit of each token for every collection but the last. Two schedules of collections with the same operations of the others leave exactly the same pool; collecting once, at the end, pays most. The bounds assume that the growth of the fees and the amounts due fit in 256 bits. But a collection may fail: after a fee that is tiny for the position the call panics, and returns again after more fees.",
 "all reachable pools, all positions with liquidity, all operations of others that leave the position alone, all schedules of collections that return",
 "The statement compares all schedules of collections over all histories; the loss shows only when roundings add up.",
 ["lib/pool/pool.go: BurnStrategy, CollectStrategy, updatePosition", "lib/position/position.go: Update", "lib/tickdata/tickdata.go: GetFeeGrowthInside"])
prop("C112", "More money buys at least as much liquidity",
 "At the same price and in the same range GetLiquidityForAmount returns at least as much liquidity for larger amounts. For the sum of two pairs of amounts it returns at least the sum of the two liquidities, and at most one unit more if the price is outside the range, so that one token is needed; for k times the amounts it returns k times the liquidity and at most k - 1 units more. So Init of a strategy that does not swap, owning at least as much of both tokens as another one of the same kind at the same price, opens the same first range with at least as much liquidity, and a strategy that owns what two others own together opens it with at least the liquidity of both. All this assumes that the liquidity that each token alone would buy fits in 256 bits; without that it may fail, as the quotient is then reduced modulo 2^256.",
 "all prices, ranges and amounts; all runs of two or three strategies of the same kind, in any pools with the same fee, price and tick",
 "The roundings of the three divisions and the minimum of the two tokens could break the order for particular prices and amounts; no sample of them settles all.",
 ["lib/liquidity_amounts/liquidity_amounts.go: GetLiquidityForAmount", "lib/strategy/*.go: Init, mintPosition"])
prop("C113", "A price limit only cuts a swap off",
 "If a swap ends before it reaches its price limit, every limit further away (or none) gives exactly the same amounts and the same pool. For an exact input, a limit further away takes at least as much, pays at least as much and moves the price at least as far. For an exact output, a limit further away pays at least as much; it also takes at least as much and moves the price at least as far, unless both swaps pay out everything that was asked for. In that case rounding can make the swap with the nearer limit move further and cost more, and there are pools where it does. When token1 is sold and the first swap ends before its limit, the swap with the limit further away also returns. Assumed otherwise: both swaps return; the exact input is below 2^160 (below 2^95 when token0 is sold); and when token0 is sold, the swap does not start at a tick where the broken downward search (C22) skips the end of a range.",
 "all reachable pools, both directions, all amounts within the bounds and all pairs of limits",
 "The limit enters every step of the loop through a comparison with the next tick's price, and a step that ends at a limit is rounded differently from one that ends at a tick or when the amount is used up.",
 ["lib/pool/pool.go: swap, ExactInputSwap, ExactOutputSwap", "lib/swapmath/swapmath.go: ComputeSwapStep"])
prop("C114", "Stopping at a limit and going on does not pay",
 "A trader swaps with a price limit, is left with part of the amount because the limit was reached, and then swaps that part with a limit further away (or none). For an exact input, one swap of the whole amount with the further limit pays out at least as much, takes no more and moves the price at least as far. For an exact output, it costs no more, pays out at least as much and moves the price no further. Assumed: all three swaps return; the exact input is below 2^160 (below 2^95 when token0 is sold); when token0 is sold, the swap does not start at a tick where the broken downward search (C22) skips the end of a range; when token1 is sold, the first swap does not end where the upward search skips the end of a word. Without the last condition a trader can gain by stopping, in both kinds of swap, and a pool is given where they do.",
 "all reachable pools, both directions, all amounts within the bounds and all pairs of limits",
 "The step that is cut at the limit is rounded at a price that the single swap never visits, and the amounts and fees of its two parts are each rounded; whether the differences favour the pool depends on price, liquidity and fee.",
 ["lib/pool/pool.go: swap, ExactInputSwap, ExactOutputSwap", "lib/swapmath/swapmath.go: ComputeSwapStep", "lib/tickdata/tickdata.go: NextInitializedTickWithinOneWord"])
prop("C115", "Positions opened around the price earn fees",
 "At any time the active liquidity of the pool is that of the strategy's positions whose range contains the current tick plus that of everybody else's. A strategy that centres its main range on the current tick and does not swap (interval around price, two intervals, fill-up, limit orders; the constant interval at Init) has its main position in range when Init or Rebalance returns, and it raises the active liquidity by at least that position's amount, unless the balances are too small for any liquidity there. This needs a width different from half the tick spacing: with exactly half, both ends can round down and the position ends at the current tick. The limit positions above the price are in range only if the current tick is a multiple of the spacing, those below never; the volatility band contains the current tick exactly if its upper price reaches the next tick. The swapping strategy chooses its range before its swap, and the swap can move the price out of it, so that all its liquidity is idle at once.",
 "all runs of the strategies, all parameters with sane widths, all ticks, spacings and balances",
 "Whether the rounded range still contains the tick depends on tick, width, spacing and sign in combination; a strategy that opens beside the price runs without error and simply earns nothing.",
 ["lib/strategy/*.go: Init, Rebalance, mintPosition", "lib/tickmath/tickmath.go: Round, Ceil, Floor", "lib/pool/pool.go: Mint"])
prop("C116", "Rebalancing a fixed range reinvests what was earned",
 "A strategy with a fixed range (the constant interval, and the full-range strategy) starts with at most one position, in the range that every Rebalance opens again. If at a Rebalance it has at least one unit of each token left over or earned in fees, it has at least as much liquidity in that range afterwards as before, up to one unit (and not even that where the price is above the range). In general, amounts that pay for a liquidity buy it back, up to one unit, unless the price is extremely low. Without a spare unit the rounding of closing and reopening costs liquidity: a run is given where an immediate Rebalance loses 167 units.",
 "all runs of the two strategies, all balances, fees and prices within the stated bounds",
 "Closing rounds down and opening rounds up, each in both tokens, and the liquidity is computed from a rounded product of prices; whether the fees make up for it depends on all of them.",
 ["lib/strategy/constant_intervall_strategy.go: Init, Rebalance", "lib/strategy/v2_strategy.go: Init, Rebalance", "lib/liquidity_amounts/liquidity_amounts.go: GetLiquidityForAmount"])
prop("C117", "Between rebalances the reported value follows the price alone",
 "While a strategy keeps its positions and others trade, mint and burn in its pool, GetAmounts moves with the price and nothing else. At a higher price it reports no more of token0 and no less of token1, at a lower price the reverse, and at the same price exactly the same, whatever was traded and earned in between. Measured in token1 the reported holdings are worth no less at a higher price, and measured in token0 no more, up to one unit of each token per position; the values a run records (in token0) are ordered the same way, up to one more unit. The upside is capped: the reported holdings are never worth more than the spare balances and the positions converted entirely to token1, nor more than the spare balances and the positions converted entirely to token0.",
 "all states of all runs, all operations of others until the next call of the strategy, all prices",
 "The claim compares two states with an arbitrary market history between them.",
 ["lib/strategy/*.go: GetAmounts", "lib/executor/executor.go: Run", "lib/liquidity_amounts/liquidity_amounts.go: GetAmountsForLiquidity"])
prop("C118", "A deeper market pays more",
 "Two pools have the same fee rate, price and tick, and the second has at least as much liquidity in every range. Then the same exact-input swap pays out at least as much in the second, up to rounding: one unit of the token bought and two of the token sold per iteration, and the input that would move its final price by one more unit, the token sold converted at that price. In particular after any deposits. Two swaps of any amounts that end at the same price differ by rounding of one unit per iteration only: the deeper market pays at least as much. The rounding is real: a purchase is given that pays one unit less after a deposit.",
 "all pairs of reachable pools, all amounts below 2^160, all price limits, both directions (within the conditions of C98)",
 "The two swaps take different paths with different numbers of iterations; the claim compares sums of rounded amounts along both.",
 ["lib/pool/pool.go: ExactInputSwap, Mint, MintStrategy", "lib/swapmath/swapmath.go: ComputeSwapStep"])
prop("C119", "The more is traded, the worse the price",
 "Two exact-input swaps in the same direction in the same state of a pool. What the second pays on top of the first is at most what it takes on top of it, less the fee, at the final price of the first; so what a larger trade buys beyond a smaller one never has a better price than the one at which the smaller one ends, and never a worse one than that at which the larger one ends. The average price of the larger trade is no better than that of the smaller. All up to rounding: one unit of the token bought and two of the token sold per iteration, and the input that would move the final price by one unit. The rounding is real: three units can buy at a better average price than two.",
 "all reachable pools, all pairs of amounts below 2^160, all price limits, both directions (sales of token0 where the downward search works)",
 "The claim compares two sums of rounded amounts along paths of any length.",
 ["lib/pool/pool.go: ExactInputSwap", "lib/swapmath/swapmath.go: ComputeSwapStep"])
prop("C120", "The loss against holding the tokens has a closed form",
 "A position is opened at one price and closed at another. At the second price, what it pays is worth less than what it cost by the liquidity times (c - d)(cd - Q^2)/(cd), where Q is the second square root price and c and d are the points of the range next to the two prices; within the range this is L(P - Q)^2/P. It is never negative, and zero exactly if the prices agree or both are on the same side of the range. For a strategy that does not swap, the losses of its positions add up, and liquidating it beats holding its tokens exactly if its fees are worth more than that. All up to two units of each token per position.",
 "all reachable pools, all ranges and liquidities below 2^128, all runs of strategies that do not swap with any trades of others in between, balances below 2^255",
 "The claim is an identity over two arbitrary prices and any history between them.",
 ["lib/pool/pool.go: MintStrategy, BurnStrategy", "lib/strategy/strategy.go: Strategy"])
prop("C121", "Where the gains of a strategy come from",
 "Over any number of rebalances, with any trades of others in between, the value of what a strategy that does not swap holds changes by exactly three things per period: the market movement of the capital it began the period with, plus the fees it earned, minus the divergence loss of its positions (C120); except that it may lose up to two units of each token per position and period to rounding. The same holds for the reported amounts at any time between rebalances, without the fees not yet collected, in either token, and so for the values a run records. The losses are never negative, and over a period in which the price returns only the fees count. This needs a record of its own for every position: the strategies with one interval always have that, the fill-up strategy has it at positive ticks, and at negative ticks it has not (C31).",
 "all runs of strategies that do not swap, any number of periods, any trades and liquidity changes of others, balances below 2^255, positions that do not share a record",
 "The claim is about histories with any number of periods, each with any trades.",
 ["lib/strategy/strategy.go: Strategy", "lib/strategy/fill_up.go: Rebalance, GetAmounts, BurnAll", "lib/pool/pool.go: MintStrategy, BurnStrategy, CollectStrategy"])

out = os.path.join(os.path.dirname(os.path.abspath(__file__)), "..", "properties.jsonl")
with open(out, "w") as f:
    for p in P: f.write(json.dumps(p) + "\n")
print(len(P))
