{
 "claims": [
  {
   "property": "C01",
   "status": "proved",
   "theorems": [
    "Uni.Props.C01_add_sub_exact"
   ],
   "note": ""
  },
  {
   "property": "C02",
   "status": "proved",
   "theorems": [
    "Uni.Props.C02_mul_exact"
   ],
   "note": ""
  },
  {
   "property": "C03",
   "status": "proved",
   "theorems": [
    "Uni.Props.C03_div_mod_exact",
    "Uni.Props.C03_udivrem_exact",
    "Uni.Props.C03_udivrem_returns",
    "Uni.Props.C03_udivrem_sound"
   ],
   "note": "reciprocal, 2-by-1 division and Knuth D verified limb by limb"
  },
  {
   "property": "C04",
   "status": "proved",
   "theorems": [
    "Uni.Props.C04_comparisons",
    "Uni.Props.C04_toInt"
   ],
   "note": ""
  },
  {
   "property": "C05",
   "status": "proved",
   "theorems": [
    "Uni.Props.C05_shifts"
   ],
   "note": ""
  },
  {
   "property": "C06",
   "status": "proved",
   "theorems": [
    "Uni.Props.C06_exp"
   ],
   "note": ""
  },
  {
   "property": "C07",
   "status": "proved",
   "theorems": [
    "Uni.Props.C07_sqrt"
   ],
   "note": "termination: 130 iterations always suffice"
  },
  {
   "property": "C08",
   "status": "proved",
   "theorems": [
    "Uni.Props.C08_signed",
    "Uni.Props.C08_minInt_div_neg_one",
    "Uni.Props.C08_addMod"
   ],
   "note": ""
  },
  {
   "property": "C12",
   "status": "proved",
   "theorems": [
    "Uni.Props.C12_muldiv_exact",
    "Uni.Props.C12_muldiv_fits"
   ],
   "note": ""
  },
  {
   "property": "C13",
   "status": "proved",
   "theorems": [
    "Uni.Props.C13_panic_set",
    "Uni.Props.C13_no_panic",
    "Uni.Props.C13_expectation_false",
    "Uni.Props.words_char"
   ],
   "note": "exact panic set; the naive expectation is refuted by a witness"
  },
  {
   "property": "C14",
   "status": "proved",
   "theorems": [
    "Uni.Props.C14_table",
    "Uni.Props.C14_constants"
   ],
   "note": ""
  },
  {
   "property": "C15",
   "status": "proved",
   "theorems": [
    "Uni.Props.C15_tick_of_price",
    "Uni.Props.C15_inverse"
   ],
   "note": ""
  },
  {
   "property": "C16",
   "status": "proved",
   "theorems": [
    "Uni.Props.C16_price_error"
   ],
   "note": "over the real numbers; every table constant is checked by the kernel to be the nearest integer"
  },
  {
   "property": "C17",
   "status": "proved",
   "theorems": [
    "Uni.Props.C17_rounding"
   ],
   "note": "float64 = rational rounded to a 53-bit significand; exponent range not limited"
  },
  {
   "property": "C18",
   "status": "proved",
   "theorems": [
    "Uni.Props.C18_amount0",
    "Uni.Props.C18_amount0_small",
    "Uni.Props.C18_amount1",
    "Uni.Props.C18_order",
    "Uni.Props.C18_rounded"
   ],
   "note": "prices in (0,2^160), liquidity below 2^128; the rounding-up variant of token0 can panic for prices of at least 2^128, shown by a witness"
  },
  {
   "property": "C19",
   "status": "proved",
   "theorems": [
    "Uni.Props.C19_input",
    "Uni.Props.C19_output",
    "Uni.Props.C19_unchecked"
   ],
   "note": "prices at least 2^32 (all valid pool prices); the code does not check that the requested output is available, shown by a witness"
  },
  {
   "property": "C20",
   "status": "proved",
   "theorems": [
    "Uni.Props.C20_step",
    "Uni.Props.C20_step_total"
   ],
   "note": "specification Spec.SwapStep"
  },
  {
   "property": "C21",
   "status": "proved",
   "theorems": [
    "Uni.Props.C21_history",
    "Uni.Props.C21_read",
    "Uni.Props.C21_flag"
   ],
   "note": "refinement of a finite map, by induction over histories"
  },
  {
   "property": "C22",
   "status": "proved",
   "theorems": [
    "Uni.Props.C22_up",
    "Uni.Props.C22_down",
    "Uni.Props.C22_down_wrong",
    "Uni.Props.C22_down_good",
    "Uni.Props.C22_empty"
   ],
   "note": "the downward search is correct exactly outside the listed start ticks; inside them it returns a tick above the start"
  },
  {
   "property": "C23",
   "status": "proved",
   "theorems": [
    "Uni.Props.C23_active",
    "Uni.Props.C23_ticks",
    "Uni.Props.C23_sorted",
    "Uni.Props.C23_unaligned_broken"
   ],
   "note": "histories: pools created with fee 500, 3000 or 10000; ranges need not be aligned to the spacing; total liquidity below 2^128; no burn above what was minted; Burn(0) only on ranges with liquidity; swap amounts below 2^160; a sale of token0 at a tick with a broken downward search only if no range boundary lies between the tick and the next multiple of 256 spacings, C23_unaligned_broken shows why (Spec/PoolHistory.lean). "
  },
  {
   "property": "C24",
   "status": "proved",
   "theorems": [
    "Uni.Props.C24_tick_price"
   ],
   "note": "histories: pools created with fee 500, 3000 or 10000; ranges need not be aligned to the spacing; total liquidity below 2^128; no burn above what was minted; Burn(0) only on ranges with liquidity; swap amounts below 2^160; a sale of token0 at a tick with a broken downward search only if no range boundary lies between the tick and the next multiple of 256 spacings, C23_unaligned_broken shows why (Spec/PoolHistory.lean). "
  },
  {
   "property": "C25",
   "status": "proved",
   "theorems": [
    "Uni.Props.C25_up",
    "Uni.Props.C25_down",
    "Uni.Props.C25_limit",
    "Uni.Props.C25_calls"
   ],
   "note": "histories: pools created with fee 500, 3000 or 10000; ranges need not be aligned to the spacing; total liquidity below 2^128; no burn above what was minted; Burn(0) only on ranges with liquidity; swap amounts below 2^160; a sale of token0 at a tick with a broken downward search only if no range boundary lies between the tick and the next multiple of 256 spacings, C23_unaligned_broken shows why (Spec/PoolHistory.lean). selling token0 raises the price when it starts at a tick where the downward search is broken; the theorem says exactly when"
  },
  {
   "property": "C26",
   "status": "proved",
   "theorems": [
    "Uni.Props.C26_exact_input"
   ],
   "note": "histories: pools created with fee 500, 3000 or 10000; ranges need not be aligned to the spacing; total liquidity below 2^128; no burn above what was minted; Burn(0) only on ranges with liquidity; swap amounts below 2^160; a sale of token0 at a tick with a broken downward search only if no range boundary lies between the tick and the next multiple of 256 spacings, C23_unaligned_broken shows why (Spec/PoolHistory.lean). "
  },
  {
   "property": "C27",
   "status": "proved",
   "theorems": [
    "Uni.Props.C27_up",
    "Uni.Props.C27_down",
    "Uni.Props.C27_barrier",
    "Uni.Props.C27_hang",
    "Uni.Props.C27_hang_example",
    "Uni.Props.C27_empty"
   ],
   "note": "histories: pools created with fee 500, 3000 or 10000; ranges need not be aligned to the spacing; total liquidity below 2^128; no burn above what was minted; Burn(0) only on ranges with liquidity; swap amounts below 2^160; a sale of token0 at a tick with a broken downward search only if no range boundary lies between the tick and the next multiple of 256 spacings, C23_unaligned_broken shows why (Spec/PoolHistory.lean). termination is false for downward swaps that have to pass a multiple of 256 spacings at or below tick 0; both directions are proved"
  },
  {
   "property": "C28",
   "status": "proved",
   "theorems": [
    "Uni.Props.C28_inside",
    "Uni.Props.C28_global",
    "Uni.Props.C28_swap"
   ],
   "note": "histories: pools created with fee 500, 3000 or 10000; ranges need not be aligned to the spacing; total liquidity below 2^128; no burn above what was minted; Burn(0) only on ranges with liquidity; swap amounts below 2^160; a sale of token0 at a tick with a broken downward search only if no range boundary lies between the tick and the next multiple of 256 spacings, C23_unaligned_broken shows why (Spec/PoolHistory.lean). increments listed per swap iteration by Spec/Growth.lean; C33_flash gives those of a flash"
  },
  {
   "property": "C29",
   "status": "proved",
   "theorems": [
    "Uni.Props.C29_payout",
    "Uni.Props.C29_burn",
    "Uni.Props.C29_mint"
   ],
   "note": "histories: pools created with fee 500, 3000 or 10000; ranges need not be aligned to the spacing; total liquidity below 2^128; no burn above what was minted; Burn(0) only on ranges with liquidity; swap amounts below 2^160; a sale of token0 at a tick with a broken downward search only if no range boundary lies between the tick and the next multiple of 256 spacings, C23_unaligned_broken shows why (Spec/PoolHistory.lean). between the two uses any admissible operation that does not use the same record (C31) and no plain burn of the same range"
  },
  {
   "property": "C30",
   "status": "proved",
   "theorems": [
    "Uni.Props.C30_mint",
    "Uni.Props.C30_burn",
    "Uni.Props.C30_round_trip"
   ],
   "note": "histories: pools created with fee 500, 3000 or 10000; ranges need not be aligned to the spacing; total liquidity below 2^128; no burn above what was minted; Burn(0) only on ranges with liquidity; swap amounts below 2^160; a sale of token0 at a tick with a broken downward search only if no range boundary lies between the tick and the next multiple of 256 spacings, C23_unaligned_broken shows why (Spec/PoolHistory.lean). the difference is at most one unit per token"
  },
  {
   "property": "C31",
   "status": "proved",
   "theorems": [
    "Uni.Props.C31_key",
    "Uni.Props.C31_injective",
    "Uni.Props.C31_frame",
    "Uni.Props.C31_shared"
   ],
   "note": "the property is false for negative ticks; exact characterisation of the shared records and a theorem showing the effect"
  },
  {
   "property": "C32",
   "status": "proved",
   "theorems": [
    "Uni.Props.C32_collect",
    "Uni.Props.C32_twice",
    "Uni.Props.C32_panic"
   ],
   "note": ""
  },
  {
   "property": "C33",
   "status": "proved",
   "theorems": [
    "Uni.Props.C33_flash",
    "Uni.Props.C33_returns",
    "Uni.Props.C33_panic"
   ],
   "note": "histories: pools created with fee 500, 3000 or 10000; ranges need not be aligned to the spacing; total liquidity below 2^128; no burn above what was minted; Burn(0) only on ranges with liquidity; swap amounts below 2^160; a sale of token0 at a tick with a broken downward search only if no range boundary lies between the tick and the next multiple of 256 spacings, C23_unaligned_broken shows why (Spec/PoolHistory.lean). "
  },
  {
   "property": "C34",
   "status": "proved",
   "theorems": [
    "Uni.Props.C34_isolated",
    "Uni.Props.C34_alone",
    "Uni.Props.C34_clone",
    "Uni.Props.C34_main",
    "Uni.Props.C34_shared",
    "Uni.Props.C34_shared_mint",
    "Uni.Props.C34_owed"
   ],
   "note": "Pools are structs of references into one heap of 256-bit cells; every schedule of operations and clones. Independence holds as long as pools are cloned while they have no ticks (main clones an unused pool: C34_main); C34_shared, C34_shared_mint and C34_owed show what fails otherwise."
  },
  {
   "property": "C35",
   "status": "proved",
   "theorems": [
    "Uni.Props.C35_restore",
    "Uni.Props.C35_removed",
    "Uni.Props.C35_unchecked",
    "Uni.Props.C35_ghost"
   ],
   "note": "histories: pools created with fee 500, 3000 or 10000; ranges need not be aligned to the spacing; total liquidity below 2^128; no burn above what was minted; Burn(0) only on ranges with liquidity; swap amounts below 2^160; a sale of token0 at a tick with a broken downward search only if no range boundary lies between the tick and the next multiple of 256 spacings, C23_unaligned_broken shows why (Spec/PoolHistory.lean). burns are not checked by the code: C35_unchecked and C35_ghost show what happens"
  },
  {
   "property": "C36",
   "status": "proved",
   "theorems": [
    "Uni.Props.C36_exact_output",
    "Uni.Props.C36_is_input"
   ],
   "note": "histories: pools created with fee 500, 3000 or 10000; ranges need not be aligned to the spacing; total liquidity below 2^128; no burn above what was minted; Burn(0) only on ranges with liquidity; swap amounts below 2^160; a sale of token0 at a tick with a broken downward search only if no range boundary lies between the tick and the next multiple of 256 spacings, C23_unaligned_broken shows why (Spec/PoolHistory.lean). a positive amount is treated as an input amount; exact output needs a negative amount"
  },
  {
   "property": "C37",
   "status": "proved",
   "theorems": [
    "Uni.Props.C37_solvent",
    "Uni.Props.C37_broken"
   ],
   "note": "histories: pools created with fee 500, 3000 or 10000; ranges need not be aligned to the spacing; total liquidity below 2^128; no burn above what was minted; Burn(0) only on ranges with liquidity; swap amounts below 2^160; a sale of token0 at a tick with a broken downward search only if no range boundary lies between the tick and the next multiple of 256 spacings, C23_unaligned_broken shows why (Spec/PoolHistory.lean). books and principal are defined in Spec/Solvency.lean (exact rational amounts); sales of token0 that start at a tick with a broken downward search are excluded, and C37_broken shows that they break the claim; a burn counts as paid out when it is made, fees are not paid out"
  },
  {
   "property": "C38",
   "status": "proved",
   "theorems": [
    "Uni.Props.C38_affordable",
    "Uni.Props.C38_amounts",
    "Uni.Props.C38_order",
    "Uni.Props.C38_best",
    "Uni.Props.C38_best1"
   ],
   "note": "cost in terms of the exact amounts of the range at the clamped price; the link to the pool's Mint is C39"
  },
  {
   "property": "C58",
   "status": "proved",
   "theorems": [
    "Uni.Props.C58_msb"
   ],
   "note": ""
  },
  {
   "property": "C09",
   "status": "proved",
   "theorems": [
    "Uni.Props.C09_fromHex",
    "Uni.Props.C09_hex",
    "Uni.Props.C09_receiver",
    "Uni.Props.C09_clean",
    "Uni.Props.C09_dirty",
    "Uni.Props.C09_json",
    "Uni.Props.C09_tick_constants"
   ],
   "note": "C09_dirty is the concrete wrong decode into a non-zero receiver."
  },
  {
   "property": "C10",
   "status": "proved",
   "theorems": [
    "Uni.Props.C10_setBytes",
    "Uni.Props.C10_encode",
    "Uni.Props.C10_beBytes",
    "Uni.Props.C10_bytes",
    "Uni.Props.C10_roundtrip",
    "Uni.Props.C10_decoders"
   ],
   "note": ""
  },
  {
   "property": "C11",
   "status": "proved",
   "theorems": [
    "Uni.Props.C11_big"
   ],
   "note": "math/big integers are modelled as Int."
  },
  {
   "property": "C59",
   "status": "proved",
   "theorems": [
    "Uni.Props.C59_rlp"
   ],
   "note": ""
  },
  {
   "property": "C43",
   "status": "proved",
   "theorems": [
    "Uni.Props.C43_window",
    "Uni.Props.C43_exact"
   ],
   "note": ""
  },
  {
   "property": "C44",
   "status": "proved",
   "theorems": [
    "Uni.Props.C44_average",
    "Uni.Props.C44_long_history_wraps"
   ],
   "note": "C44_long_history_wraps shows that the bound on n is needed."
  },
  {
   "property": "C45",
   "status": "proved",
   "theorems": [
    "Uni.Props.C45_volatility",
    "Uni.Props.C45_constant",
    "Uni.Props.C45_single"
   ],
   "note": "math/big integers are modelled as Int."
  },
  {
   "property": "C46",
   "status": "proved",
   "theorems": [
    "Uni.Props.C46_check",
    "Uni.Props.C46_wraps"
   ],
   "note": "C46_wraps is the accepted overflow."
  },
  {
   "property": "C39",
   "status": "proved",
   "theorems": [
    "Uni.Props.C39_init",
    "Uni.Props.C39_rebalance",
    "Uni.Props.C39_costs"
   ],
   "note": "states of runs: a new strategy on a new pool, then any calls of the strategy and any operations of others on its pool (Spec/Strategy.lean, Runs); the swapping strategy needs different token names and balances below 2^160. the balance equation holds in the integers, so no subtraction wraps"
  },
  {
   "property": "C40",
   "status": "proved",
   "theorems": [
    "Uni.Props.C40_pool",
    "Uni.Props.C40_amounts",
    "Uni.Props.C40_again",
    "Uni.Props.C40_twice"
   ],
   "note": "states of runs: a new strategy on a new pool, then any calls of the strategy and any operations of others on its pool (Spec/Strategy.lean, Runs); the swapping strategy needs different token names and balances below 2^160. C40_amounts needs positions with different records (C31); C40_twice shows that the claim about a second BurnAll is false for the three strategies that keep their list"
  },
  {
   "property": "C41",
   "status": "proved",
   "theorems": [
    "Uni.Props.C41_amounts",
    "Uni.Props.C41_burn",
    "Uni.Props.C41_burnAll"
   ],
   "note": "states of runs: a new strategy on a new pool, then any calls of the strategy and any operations of others on its pool (Spec/Strategy.lean, Runs); the swapping strategy needs different token names and balances below 2^160. GetAmounts is a function of the state in the model, so it changes nothing"
  },
  {
   "property": "C42",
   "status": "proved",
   "theorems": [
    "Uni.Props.C42_wellformed",
    "Uni.Props.C42_init",
    "Uni.Props.C42_rebalance",
    "Uni.Props.C42_constant"
   ],
   "note": "states of runs: a new strategy on a new pool, then any calls of the strategy and any operations of others on its pool (Spec/Strategy.lean, Runs); the swapping strategy needs different token names and balances below 2^160. documented ranges: Spec/Strategy.lean InitRanges and RebalanceRanges"
  },
  {
   "property": "C60",
   "status": "proved",
   "theorems": [
    "Uni.Props.C60_init",
    "Uni.Props.C60_rebalance"
   ],
   "note": "states of runs: a new strategy on a new pool, then any calls of the strategy and any operations of others on its pool (Spec/Strategy.lean, Runs); the swapping strategy needs different token names and balances below 2^160. "
  },
  {
   "property": "C47",
   "status": "proved",
   "theorems": [
    "Uni.Props.C47_order",
    "Uni.Props.C47_run"
   ],
   "note": "C47_order needs no assumption on the times; for the plain replay see C51."
  },
  {
   "property": "C48",
   "status": "proved",
   "theorems": [
    "Uni.Props.C47_run",
    "Uni.Props.C48_start",
    "Uni.Props.C48_count",
    "Uni.Props.C48_due",
    "Uni.Props.C48_dense"
   ],
   "note": "Times within 64 bits (Clock)."
  },
  {
   "property": "C49",
   "status": "proved",
   "theorems": [
    "Uni.Props.C47_run",
    "Uni.Props.C49_due",
    "Uni.Props.C49_never_early",
    "Uni.Props.C49_dense"
   ],
   "note": "Times within 64 bits (Clock)."
  },
  {
   "property": "C50",
   "status": "proved",
   "theorems": [
    "Uni.Props.C47_run",
    "Uni.Props.C50_due",
    "Uni.Props.C50_every"
   ],
   "note": "C50_every: with real timestamps the interval has no effect."
  },
  {
   "property": "C51",
   "status": "proved",
   "theorems": [
    "Uni.Props.C51_hold"
   ],
   "note": ""
  },
  {
   "property": "C61",
   "status": "proved",
   "theorems": [
    "Uni.Props.C61_runs",
    "Uni.Props.C61_final"
   ],
   "note": ""
  },
  {
   "property": "C62",
   "status": "proved",
   "theorems": [
    "Uni.Props.C62_create"
   ],
   "note": "Capacities too large for the machine are not modelled."
  },
  {
   "property": "C63",
   "status": "proved",
   "theorems": [
    "Uni.Props.C63_recorded",
    "Uni.Props.C63_last",
    "Uni.Props.C63_value",
    "Uni.Props.C63_wraps"
   ],
   "note": "C63_wraps: the bound on the price is needed."
  },
  {
   "property": "C52",
   "status": "proved",
   "theorems": [
    "Uni.Props.C52_results",
    "Uni.Props.C52_once",
    "Uni.Props.C52_no_panic",
    "Uni.Props.C52_batch",
    "Uni.Props.C52_no_deadlock",
    "Uni.Props.C52_terminates",
    "Uni.Props.C52_main"
   ],
   "note": "For every number of simulations and batch size; simulations run in private steps (no sharing between pools: C34)."
  },
  {
   "property": "C53",
   "status": "proved",
   "theorems": [
    "Uni.Props.C53_pow",
    "Uni.Props.C53_negative",
    "Uni.Props.C53_diverges"
   ],
   "note": ""
  },
  {
   "property": "C54",
   "status": "proved",
   "theorems": [
    "Uni.Props.C54_drawdown",
    "Uni.Props.C54_exact",
    "Uni.Props.C54_short",
    "Uni.Props.C54_nan"
   ],
   "note": "With float64 rounding (53-bit significand, unlimited exponent)."
  },
  {
   "property": "C55",
   "status": "proved",
   "theorems": [
    "Uni.Props.C55_series"
   ],
   "note": ""
  },
  {
   "property": "C64",
   "status": "proved",
   "theorems": [
    "Uni.Props.C64_std",
    "Uni.Props.C64_nonneg"
   ],
   "note": "Real arithmetic: float rounding and math.Log are not modelled."
  },
  {
   "property": "C65",
   "status": "proved",
   "theorems": [
    "Uni.Props.C65_down",
    "Uni.Props.C65_zero"
   ],
   "note": "Real arithmetic: float rounding and math.Log are not modelled."
  },
  {
   "property": "C66",
   "status": "proved",
   "theorems": [
    "Uni.Props.C66_var"
   ],
   "note": "Real arithmetic: float rounding and math.Log are not modelled."
  },
  {
   "property": "C67",
   "status": "proved",
   "theorems": [
    "Uni.Props.C67_return"
   ],
   "note": "With float64 rounding."
  },
  {
   "property": "C68",
   "status": "proved",
   "theorems": [
    "Uni.Props.C68_report"
   ],
   "note": ""
  },
  {
   "property": "C56",
   "status": "proved",
   "theorems": [
    "Uni.Props.C56_text",
    "Uni.Props.C56_parse",
    "Uni.Props.C56_amount",
    "Uni.Props.C56_swap",
    "Uni.Props.C56_mint_burn",
    "Uni.Props.C56_flash",
    "Uni.Props.C56_types",
    "Uni.Props.C56_replay"
   ],
   "note": "Decimal texts character by character. The JSON syntax between the struct TransactionInput and the file is not modelled; a text that is not a number is given an arbitrary value (math/big leaves it undefined)."
  },
  {
   "property": "C57",
   "status": "proved",
   "theorems": [
    "Uni.Props.C57_covered",
    "Uni.Props.C57_never_negative",
    "Uni.Props.C57_payable",
    "Uni.Props.C57_collision"
   ],
   "note": "histories: pools created with fee 500, 3000 or 10000; ranges need not be aligned to the spacing; total liquidity below 2^128; no burn above what was minted; Burn(0) only on ranges with liquidity; swap amounts below 2^160; a sale of token0 at a tick with a broken downward search only if no range boundary lies between the tick and the next multiple of 256 spacings, C23_unaligned_broken shows why (Spec/PoolHistory.lean). cash, claims and histories are defined in Spec/Cash.lean; growth counters may wrap around; C57_collision is a concrete history with two ranges on negative ticks that share a record, in which the pool pays out more than it got"
  },
  {
   "property": "C69",
   "status": "proved",
   "theorems": [
    "Uni.Props.C69_bitwise",
    "Uni.Props.C69_length",
    "Uni.Props.C69_uint64",
    "Uni.Props.C69_byte",
    "Uni.Props.C69_extendSign"
   ],
   "note": ""
  },
  {
   "property": "C70",
   "status": "proved",
   "theorems": [
    "Uni.Props.C70_mulMod",
    "Uni.Props.C70_reciprocal",
    "Uni.Props.C70_withReciprocal"
   ],
   "note": "All words of the Newton steps and of the reduction are modelled; fuel 9 for the correction loop, proved enough."
  },
  {
   "property": "C71",
   "status": "proved",
   "theorems": [
    "Uni.Props.C71_add_sub",
    "Uni.Props.C71_mul",
    "Uni.Props.C71_div_mod",
    "Uni.Props.C71_modular",
    "Uni.Props.C71_shifts",
    "Uni.Props.C71_bitwise",
    "Uni.Props.C71_exp_sqrt_set"
   ],
   "note": "Memory model: a heap of 256-bit cells; word-by-word methods read and write single words. No hypothesis separates the pointers."
  },
  {
   "property": "C72",
   "status": "proved",
   "theorems": [
    "Uni.Props.C72_path",
    "Uni.Props.C72_fair",
    "Uni.Props.C72_cost"
   ],
   "note": "histories: pools created with fee 500, 3000 or 10000; ranges need not be aligned to the spacing; total liquidity below 2^128; no burn above what was minted; Burn(0) only on ranges with liquidity; swap amounts below 2^160; a sale of token0 at a tick with a broken downward search only if no range boundary lies between the tick and the next multiple of 256 spacings, C23_unaligned_broken shows why (Spec/PoolHistory.lean). sales of token0 that start at a tick with a broken downward search are excluded (there the price moves the wrong way, C37_broken); legs and paths are defined in Spec/SwapPath.lean"
  },
  {
   "property": "C73",
   "status": "proved",
   "theorems": [
    "Uni.Props.C73_no_profit",
    "Uni.Props.C73_direction"
   ],
   "note": "histories: pools created with fee 500, 3000 or 10000; ranges need not be aligned to the spacing; total liquidity below 2^128; no burn above what was minted; Burn(0) only on ranges with liquidity; swap amounts below 2^160; a sale of token0 at a tick with a broken downward search only if no range boundary lies between the tick and the next multiple of 256 spacings, C23_unaligned_broken shows why (Spec/PoolHistory.lean). sales of token0 at ticks with a broken downward search are excluded, as in C37"
  },
  {
   "property": "C74",
   "status": "proved",
   "theorems": [
    "Uni.Props.C74_history"
   ],
   "note": "histories: pools created with fee 500, 3000 or 10000; ranges need not be aligned to the spacing; total liquidity below 2^128; no burn above what was minted; Burn(0) only on ranges with liquidity; swap amounts below 2^160; a sale of token0 at a tick with a broken downward search only if no range boundary lies between the tick and the next multiple of 256 spacings, C23_unaligned_broken shows why (Spec/PoolHistory.lean). the number of loop iterations allowed (fuel) is the same on both sides, so one of the swaps fails to return exactly when the other does"
  },
  {
   "property": "C75",
   "status": "proved",
   "theorems": [
    "Uni.Props.C75_input",
    "Uni.Props.C75_output"
   ],
   "note": "histories: pools created with fee 500, 3000 or 10000; ranges need not be aligned to the spacing; total liquidity below 2^128; no burn above what was minted; Burn(0) only on ranges with liquidity; swap amounts below 2^160; a sale of token0 at a tick with a broken downward search only if no range boundary lies between the tick and the next multiple of 256 spacings, C23_unaligned_broken shows why (Spec/PoolHistory.lean). stated for swaps that return"
  },
  {
   "property": "C76",
   "status": "proved",
   "theorems": [
    "Uni.Props.C76_agrees",
    "Uni.Props.C76_constants",
    "Uni.Props.C76_stable",
    "Uni.Props.C76_price_is_shared"
   ],
   "note": "pools cloned while they have no ticks (otherwise see C34); the number given to NewPool is not assigned to, which is necessary (C76_price_is_shared)"
  },
  {
   "property": "C77",
   "status": "proved",
   "theorems": [
    "Uni.Props.C77_agrees",
    "Uni.Props.C77_inputs",
    "Uni.Props.C77_alone"
   ],
   "note": "one simulation after the other; a new pool as in main; the report of a run is computed from the recorded values (C64-C67)"
  },
  {
   "property": "C78",
   "status": "proved",
   "theorems": [
    "Uni.Props.C78_no_race",
    "Uni.Props.C78_results",
    "Uni.Props.C78_panic",
    "Uni.Props.C78_ends",
    "Uni.Props.C78_inputs"
   ],
   "note": "sequentially consistent memory (what Go guarantees for programs without races); numbers a goroutine allocates itself are in its own arena; structs and slices other than the results are held by one goroutine and are values"
  },
  {
   "property": "C79",
   "status": "proved",
   "theorems": [
    "Uni.Props.C79_same_tick",
    "Uni.Props.C79_greatest",
    "Uni.Props.C79_inverse"
   ],
   "note": "the logarithm function has no caller left in the repository; the theorem shows that replacing it by the table search changed nothing"
  },
  {
   "property": "C80",
   "status": "proved",
   "theorems": [
    "Uni.Props.C80_mint",
    "Uni.Props.C80_burn",
    "Uni.Props.C80_mintStrategy",
    "Uni.Props.C80_burnStrategy",
    "Uni.Props.C80_poke",
    "Uni.Props.C80_collect",
    "Uni.Props.C80_large",
    "Uni.Props.C80_stuck"
   ],
   "note": "C80_stuck is a reachable state in which a position that holds its liquidity cannot be closed; swaps are C27, flash loans C33; BurnStrategy is treated for amounts that are outstanding and for zero"
  },
  {
   "property": "C81",
   "status": "proved",
   "theorems": [
    "Uni.Props.C81_records",
    "Uni.Props.C81_exact",
    "Uni.Props.C81_large",
    "Uni.Props.C81_stuck"
   ],
   "note": "C81_stuck is a run in which BurnAll panics"
  },
  {
   "property": "C82",
   "status": "proved",
   "theorems": [
    "Uni.Props.C82_var",
    "Uni.Props.C82_down",
    "Uni.Props.C82_std",
    "Uni.Props.C82_nan",
    "Uni.Props.C82_report"
   ],
   "note": "math.Log is a parameter of the model, assumed accurate to one unit in the last place; overflow and subnormals cannot occur for these values and are not modelled"
  },
  {
   "property": "C83",
   "status": "proved",
   "theorems": [
    "Uni.Props.C83_all_or_nothing",
    "Uni.Props.C83_finite",
    "Uni.Props.C83_zero"
   ],
   "note": "the JSON text itself is not modelled: the file is the value that was encoded, or empty; that Encode writes nothing when a number is not finite is a fact about encoding/json"
  },
  {
   "property": "C84",
   "status": "proved",
   "theorems": [
    "Uni.Props.C84_input",
    "Uni.Props.C84_output",
    "Uni.Props.C84_skipped"
   ],
   "note": "C84_skipped shows that the condition on where the first part ends is needed; above 2^95 the code computes the price after selling token0 less precisely"
  },
  {
   "property": "C85",
   "status": "proved",
   "theorems": [
    "Uni.Props.C85_mints",
    "Uni.Props.C85_burns",
    "Uni.Props.C85_exchange",
    "Uni.Props.C85_once",
    "Uni.Props.C85_once_mint",
    "Uni.Props.C85_once_burn",
    "Uni.Props.C85_emptied"
   ],
   "note": "C85_emptied shows that the condition on shared boundaries is needed"
  },
  {
   "property": "C86",
   "status": "proved",
   "theorems": [
    "Uni.Props.C86_init",
    "Uni.Props.C86_rebalance",
    "Uni.Props.C86_unique",
    "Uni.Props.C86_swap_init",
    "Uni.Props.C86_swap_rebalance",
    "Uni.Props.C86_only_init",
    "Uni.Props.C86_only_rebalance"
   ],
   "note": "the plans are in Spec/Invest.lean; C86_only compares calls that return in both pools"
  },
  {
   "property": "C87",
   "status": "proved",
   "theorems": [
    "Uni.Props.C87_init",
    "Uni.Props.C87_rebalance",
    "Uni.Props.C87_rebalance_needs",
    "Uni.Props.C87_liquidity",
    "Uni.Props.C87_small",
    "Uni.Props.C87_plan",
    "Uni.Props.C87_fresh",
    "Uni.Props.C87_empty",
    "Uni.Props.C87_closed",
    "Uni.Props.C87_price"
   ],
   "note": "the conditions are in Spec/Start.lean and Spec/Total.lean; when BurnAll returns is C81"
  },
  {
   "property": "C88",
   "status": "proved",
   "theorems": [
    "Uni.Props.C88_sale",
    "Uni.Props.C88_iff",
    "Uni.Props.C88_decides",
    "Uni.Props.C88_capacity",
    "Uni.Props.C88_at",
    "Uni.Props.C88_broken",
    "Uni.Props.C88_rest",
    "Uni.Props.C88_fuel"
   ],
   "note": "the vocabulary is in Spec/Sale.lean; swaps of token0 with no wall between the limit and the price, and swaps of token1, are C27"
  },
  {
   "property": "C89",
   "status": "proved",
   "theorems": [
    "Uni.Props.C89_covered",
    "Uni.Props.C89_liquidated",
    "Uni.Props.C89_gain",
    "Uni.Props.C89_run",
    "Uni.Props.C89_shared"
   ],
   "note": "the vocabulary is in Spec/Gains.lean; C89_shared shows what happens without separate records (the key collision of C31)"
  },
  {
   "property": "C90",
   "status": "proved",
   "theorems": [
    "Uni.Props.C90_init",
    "Uni.Props.C90_rebalance",
    "Uni.Props.C90_swap_init",
    "Uni.Props.C90_swap_rebalance"
   ],
   "note": "value at a price: Spec/Value.lean; for the swapping strategy the upper bound only"
  },
  {
   "property": "C91",
   "status": "proved",
   "theorems": [
    "Uni.Props.C91_swap",
    "Uni.Props.C91_trades",
    "Uni.Props.C91_floor"
   ],
   "note": "value at a price: Spec/Value.lean; exact rationals, the fee factor included"
  },
  {
   "property": "C92",
   "status": "proved",
   "theorems": [
    "Uni.Props.C92_position",
    "Uni.Props.C92_later",
    "Uni.Props.C92_hold",
    "Uni.Props.C92_close"
   ],
   "note": "value at a price: Spec/Value.lean; Later describes what others do in the meantime"
  },
  {
   "property": "C93",
   "status": "proved",
   "theorems": [
    "Uni.Props.C93_both",
    "Uni.Props.C93_input",
    "Uni.Props.C93_buy",
    "Uni.Props.C93_sell",
    "Uni.Props.C93_elsewhere",
    "Uni.Props.C93_output_counterexample"
   ],
   "note": "Misses, SameReached, SameTrade and Elsewhere: Spec/Local.lean; C93_output_counterexample shows why exact output needs both swaps"
  },
  {
   "property": "C94",
   "status": "proved",
   "theorems": [
    "Uni.Props.C94_capital",
    "Uni.Props.C94_narrow",
    "Uni.Props.C94_low_price",
    "Uni.Props.C94_growth",
    "Uni.Props.C94_proportion",
    "Uni.Props.C94_concentrated"
   ],
   "note": "SideBySide and Earns: Spec/Narrow.lean; C94_low_price shows why very low prices are excluded"
  },
  {
   "property": "C95",
   "status": "proved",
   "theorems": [
    "Uni.Props.C95_schedule",
    "Uni.Props.C95_returns",
    "Uni.Props.C95_fails",
    "Uni.Props.C95_outcome",
    "Uni.Props.C95_hold",
    "Uni.Props.C95_valuable",
    "Uni.Props.C95_invaluable",
    "Uni.Props.C95_value"
   ],
   "note": "Valuable, Event.Fails, AllValued, EndFails: Spec/Returns.lean"
  },
  {
   "property": "C96",
   "status": "proved",
   "theorems": [
    "Uni.Props.C96_ahead",
    "Uni.Props.C96_prefix",
    "Uni.Props.C96_common",
    "Uni.Props.C96_same"
   ],
   "note": "SameSetup: Spec/Returns.lean"
  },
  {
   "property": "C97",
   "status": "proved",
   "theorems": [
    "Uni.Props.C97_seen",
    "Uni.Props.C97_average",
    "Uni.Props.C97_refused",
    "Uni.Props.C97_centre",
    "Uni.Props.C97_band",
    "Uni.Props.C97_cold",
    "Uni.Props.C97_flat",
    "Uni.Props.C97_first",
    "Uni.Props.C97_immediate",
    "Uni.Props.C97_run"
   ],
   "note": "Sees, memory, latest, squareSum: Spec/History.lean"
  },
  {
   "property": "C98",
   "status": "proved",
   "theorems": [
    "Uni.Props.C98_depth",
    "Uni.Props.C98_aligned",
    "Uni.Props.C98_buy",
    "Uni.Props.C98_sell",
    "Uni.Props.C98_deposits",
    "Uni.Props.C98_withdrawals",
    "Uni.Props.C98_output_counterexample"
   ],
   "note": "Deeper, Through, Adds, Removes: Spec/Depth.lean"
  },
  {
   "property": "C99",
   "status": "proved",
   "theorems": [
    "Uni.Props.C99_reads",
    "Uni.Props.C99_moved",
    "Uni.Props.C99_late",
    "Uni.Props.C99_absolute_counterexample"
   ],
   "note": "SameDeal, Moved, SameOutcome, LatePrices: Spec/Later.lean"
  },
  {
   "property": "C100",
   "status": "proved",
   "theorems": [
    "Uni.Props.C100_trade",
    "Uni.Props.C100_sell",
    "Uni.Props.C100_buy",
    "Uni.Props.C100_unfilled"
   ],
   "note": "clamp: Spec/Amounts.lean, tickPrice: Spec/Pool.lean"
  },
  {
   "property": "C101",
   "status": "proved",
   "theorems": [
    "Uni.Props.C101_output",
    "Uni.Props.C101_input",
    "Uni.Props.C101_least",
    "Uni.Props.C101_equal_counterexample"
   ],
   "note": "exact input: positive amount, exact output: negative amount (C25_calls); Further: Props/Monotone.lean; C101_equal_counterexample shows why the output asked for must be smaller"
  },
  {
   "property": "C102",
   "status": "proved",
   "theorems": [
    "Uni.Props.C102_values",
    "Uni.Props.C102_every",
    "Uni.Props.C102_prices",
    "Uni.Props.C102_updates",
    "Uni.Props.C102_bounds",
    "Uni.Props.C102_prices_counterexample"
   ],
   "note": "C102_prices_counterexample shows that the price interval matters to a strategy that keeps prices"
  },
  {
   "property": "C103",
   "status": "proved",
   "theorems": [
    "Uni.Props.C103_cost",
    "Uni.Props.C103_principal",
    "Uni.Props.C103_fees"
   ],
   "note": "fees under a condition on the paid amounts that rules out a full turn of a fee counter"
  },
  {
   "property": "C104",
   "status": "proved",
   "theorems": [
    "Uni.Props.C104_input",
    "Uni.Props.C104_output"
   ],
   "note": "compares a pool with itself at another fee rate; pools created for different fees also differ in their tick spacing"
  },
  {
   "property": "C105",
   "status": "proved",
   "theorems": [
    "Uni.Props.C105_unit",
    "Uni.Props.C105_longer",
    "Uni.Props.C105_report"
   ],
   "note": "statistics of log returns over the reals as in C64 to C66; C82 bounds the distance to float64"
  },
  {
   "property": "C106",
   "status": "proved",
   "theorems": [
    "Uni.Props.C106_init",
    "Uni.Props.C106_rebalance",
    "Uni.Props.C106_burnAll",
    "Uni.Props.C106_side",
    "Uni.Props.C106_plan"
   ],
   "note": "as in C86 for calls that return and whose liquidity fits 128 bits"
  },
  {
   "property": "C107",
   "status": "proved",
   "theorems": [
    "Uni.Props.C107_history",
    "Uni.Props.C107_rebalance",
    "Uni.Props.C107_burnAll",
    "Uni.Props.C107_value",
    "Uni.Props.C107_run"
   ],
   "note": "for calls that return on both sides, within the limits of C34; the positions open at the same time use different records (C31 says when they do)"
  },
  {
   "property": "C108",
   "status": "proved",
   "theorems": [
    "Uni.Props.C108_unary_check",
    "Uni.Props.C108_dual_check",
    "Uni.Props.C108_three_check",
    "Uni.Props.C108_sqrt",
    "Uni.Props.C108_binary_methods",
    "Uni.Props.C108_ternary_methods",
    "Uni.Props.C108_fuzz",
    "Uni.Props.C108_fuzz_binary",
    "Uni.Props.C108_fuzz_ternary",
    "Uni.Props.C108_short",
    "Uni.Props.C108_unary_finds",
    "Uni.Props.C108_dual_finds",
    "Uni.Props.C108_three_finds",
    "Uni.Props.C108_hasty"
   ],
   "note": "Fuzz itself only ever runs the check of Sqrt (the switch after it is not reached); the other two are proved as functions of their own. Computes1/2/3: Spec/Fuzz.lean"
  },
  {
   "property": "C109",
   "status": "proved",
   "theorems": [
    "Uni.Props.C109_token0",
    "Uni.Props.C109_token1",
    "Uni.Props.C109_left",
    "Uni.Props.C109_exact_output",
    "Uni.Props.C109_plain"
   ],
   "note": "with C57: the cash lies between the claims and the claims plus rounding. Histories: Kept in Spec/Dust.lean"
  },
  {
   "property": "C110",
   "status": "proved",
   "theorems": [
    "Uni.Props.C110_report",
    "Uni.Props.C110_run",
    "Uni.Props.C110_ticks",
    "Uni.Props.C110_rounding"
   ],
   "note": "the IEEE 754 model is Model/IEEE.lean; log_exists shows that a logarithm as assumed exists"
  },
  {
   "property": "C111",
   "status": "proved",
   "theorems": [
    "Uni.Props.C111_received",
    "Uni.Props.C111_same",
    "Uni.Props.C111_schedule",
    "Uni.Props.C111_early"
   ],
   "note": "the bounds are attained in the example: three collections pay 9, one pays 11"
  },
  {
   "property": "C112",
   "status": "proved",
   "theorems": [
    "Uni.Props.C112_more",
    "Uni.Props.C112_pool",
    "Uni.Props.C112_scale",
    "Uni.Props.C112_init_more",
    "Uni.Props.C112_init_pool",
    "Uni.Props.C112_wraps"
   ],
   "note": "both bounds are attained in the examples; the swapping strategy and the strategy that provides nothing are excluded from the statements about Init"
  },
  {
   "property": "C113",
   "status": "proved",
   "theorems": [
    "Uni.Props.C113_same",
    "Uni.Props.C113_up",
    "Uni.Props.C113_input",
    "Uni.Props.C113_output",
    "Uni.Props.C113_exception"
   ],
   "note": "C113_exception shows that the exception for exact output is real"
  },
  {
   "property": "C114",
   "status": "proved",
   "theorems": [
    "Uni.Props.C114_input",
    "Uni.Props.C114_output",
    "Uni.Props.C114_skipped"
   ],
   "note": "C114_skipped shows that the condition on where the first swap ends is needed"
  },
  {
   "property": "C115",
   "status": "proved",
   "theorems": [
    "Uni.Props.C115_active",
    "Uni.Props.C115_centred",
    "Uni.Props.C115_wide",
    "Uni.Props.C115_side",
    "Uni.Props.C115_band",
    "Uni.Props.C115_init",
    "Uni.Props.C115_rebalance",
    "Uni.Props.C115_swapped",
    "Uni.Props.C115_half"
   ],
   "note": "C115_half shows that the condition on the width is needed; C115_swapped that the swapping strategy can open out of range"
  },
  {
   "property": "C116",
   "status": "proved",
   "theorems": [
    "Uni.Props.C116_buyback",
    "Uni.Props.C116_init",
    "Uni.Props.C116_rebalance",
    "Uni.Props.C116_shrinks"
   ],
   "note": "C116_shrinks shows that a spare unit of each token is needed"
  },
  {
   "property": "C117",
   "status": "proved",
   "theorems": [
    "Uni.Props.C117_amounts",
    "Uni.Props.C117_same",
    "Uni.Props.C117_value",
    "Uni.Props.C117_recorded",
    "Uni.Props.C117_cap"
   ],
   "note": "C117_recorded is for square root prices below 2^128 and values below 2^256, as C63"
  },
  {
   "property": "C118",
   "status": "proved",
   "theorems": [
    "Uni.Props.C118_pays",
    "Uni.Props.C118_deposits",
    "Uni.Props.C118_limit",
    "Uni.Props.C118_rounding"
   ],
   "note": "for sales of token0 the downward search must work at the tick (as C98)"
  },
  {
   "property": "C119",
   "status": "proved",
   "theorems": [
    "Uni.Props.C119_marginal",
    "Uni.Props.C119_average",
    "Uni.Props.C119_rounding"
   ],
   "note": ""
  },
  {
   "property": "C120",
   "status": "proved",
   "theorems": [
    "Uni.Props.C120_position",
    "Uni.Props.C120_inside",
    "Uni.Props.C120_sign",
    "Uni.Props.C120_hold",
    "Uni.Props.C120_fees"
   ],
   "note": ""
  },
  {
   "property": "C121",
   "status": "proved",
   "theorems": [
    "Uni.Props.C121_gain",
    "Uni.Props.C121_now",
    "Uni.Props.C121_token0",
    "Uni.Props.C121_recorded",
    "Uni.Props.C121_close",
    "Uni.Props.C121_run",
    "Uni.Props.C121_loss",
    "Uni.Props.C121_round",
    "Uni.Props.C121_single",
    "Uni.Props.C121_fill",
    "Uni.Props.C121_shared"
   ],
   "note": ""
  }
 ]
}