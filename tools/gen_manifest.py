#!/usr/bin/env python3
import json
C = []
def c(prop, status, theorems, note=''):
    C.append({"property": prop, "status": status, "theorems": ["Uni.Props." + t for t in theorems], "note": note})
c("C01","proved",["C01_add_sub_exact"])
c("C02","proved",["C02_mul_exact"])
c("C03","proved",["C03_div_mod_exact","C03_udivrem_exact","C03_udivrem_returns","C03_udivrem_sound"],"reciprocal, 2-by-1 division and Knuth D verified limb by limb")
c("C04","proved",["C04_comparisons","C04_toInt"])
c("C05","proved",["C05_shifts"])
c("C06","proved",["C06_exp"])
c("C07","proved",["C07_sqrt"],"termination: 130 iterations always suffice")
c("C08","proved",["C08_signed","C08_minInt_div_neg_one","C08_addMod"])
c("C12","proved",["C12_muldiv_exact","C12_muldiv_fits"])
c("C13","proved",["C13_panic_set","C13_no_panic","C13_expectation_false","words_char"],"exact panic set; the naive expectation is refuted by a witness")
c("C14","proved",["C14_table","C14_constants"])
c("C15","proved",["C15_tick_of_price","C15_inverse"])
c("C16","proved",["C16_price_error"],"over the real numbers; every table constant is checked by the kernel to be the nearest integer")
c("C17","proved",["C17_rounding"],"float64 = rational rounded to a 53-bit significand; exponent range not limited")
c("C18","proved",["C18_amount0","C18_amount0_small","C18_amount1","C18_order","C18_rounded"],"prices in (0,2^160), liquidity below 2^128; the rounding-up variant of token0 can panic for prices of at least 2^128, shown by a witness")
c("C19","proved",["C19_input","C19_output","C19_unchecked"],"prices at least 2^32 (all valid pool prices); the code does not check that the requested output is available, shown by a witness")
c("C20","proved",["C20_step","C20_step_total"],"specification Spec.SwapStep")
c("C21","proved",["C21_history","C21_read","C21_flag"],"refinement of a finite map, by induction over histories")
c("C22","proved",["C22_up","C22_down","C22_down_wrong","C22_down_good","C22_empty"],"the downward search is correct exactly outside the listed start ticks; inside them it returns a tick above the start")
NB="histories: pools created with fee 500, 3000 or 10000; ranges need not be aligned to the spacing; total liquidity below 2^128; no burn above what was minted; Burn(0) only on ranges with liquidity; swap amounts below 2^160; a sale of token0 at a tick with a broken downward search only if no range boundary lies between the tick and the next multiple of 256 spacings, C23_unaligned_broken shows why (Spec/PoolHistory.lean). "
c("C23","proved",["C23_active","C23_ticks","C23_sorted","C23_unaligned_broken"],NB)
c("C24","proved",["C24_tick_price"],NB)
c("C25","proved",["C25_up","C25_down","C25_limit","C25_calls"],NB+"selling token0 raises the price when it starts at a tick where the downward search is broken; the theorem says exactly when")
c("C26","proved",["C26_exact_input"],NB)
c("C27","proved",["C27_up","C27_down","C27_barrier","C27_hang","C27_hang_example","C27_empty"],NB+"termination is false for downward swaps that have to pass a multiple of 256 spacings at or below tick 0; both directions are proved")
c("C28","proved",["C28_inside","C28_global","C28_swap"],NB+"increments listed per swap iteration by Spec/Growth.lean; C33_flash gives those of a flash")
c("C29","proved",["C29_payout","C29_burn","C29_mint"],NB+"between the two uses any admissible operation that does not use the same record (C31) and no plain burn of the same range")
c("C30","proved",["C30_mint","C30_burn","C30_round_trip"],NB+"the difference is at most one unit per token")
c("C31","proved",["C31_key","C31_injective","C31_frame","C31_shared"],"the property is false for negative ticks; exact characterisation of the shared records and a theorem showing the effect")
c("C32","proved",["C32_collect","C32_twice","C32_panic"])
c("C33","proved",["C33_flash","C33_returns","C33_panic"],NB)
c("C34","proved",["C34_isolated","C34_alone","C34_clone","C34_main","C34_shared","C34_shared_mint","C34_owed"],"Pools are structs of references into one heap of 256-bit cells; every schedule of operations and clones. Independence holds as long as pools are cloned while they have no ticks (main clones an unused pool: C34_main); C34_shared, C34_shared_mint and C34_owed show what fails otherwise.")
c("C35","proved",["C35_restore","C35_removed","C35_unchecked","C35_ghost"],NB+"burns are not checked by the code: C35_unchecked and C35_ghost show what happens")
c("C36","proved",["C36_exact_output","C36_is_input"],NB+"a positive amount is treated as an input amount; exact output needs a negative amount")
c("C37","proved",["C37_solvent","C37_broken"],NB+"books and principal are defined in Spec/Solvency.lean (exact rational amounts); sales of token0 that start at a tick with a broken downward search are excluded, and C37_broken shows that they break the claim; a burn counts as paid out when it is made, fees are not paid out")
c("C38","proved",["C38_affordable","C38_amounts","C38_order","C38_best","C38_best1"],"cost in terms of the exact amounts of the range at the clamped price; the link to the pool's Mint is C39")
c("C58","proved",["C58_msb"],"")
c("C09","proved",["C09_fromHex","C09_hex","C09_receiver","C09_clean","C09_dirty","C09_json","C09_tick_constants"],"C09_dirty is the concrete wrong decode into a non-zero receiver.")
c("C10","proved",["C10_setBytes","C10_encode","C10_beBytes","C10_bytes","C10_roundtrip","C10_decoders"],"")
c("C11","proved",["C11_big"],"math/big integers are modelled as Int.")
c("C59","proved",["C59_rlp"],"")
c("C43","proved",["C43_window","C43_exact"],"")
c("C44","proved",["C44_average","C44_long_history_wraps"],"C44_long_history_wraps shows that the bound on n is needed.")
c("C45","proved",["C45_volatility","C45_constant","C45_single"],"math/big integers are modelled as Int.")
c("C46","proved",["C46_check","C46_wraps"],"C46_wraps is the accepted overflow.")
RN="states of runs: a new strategy on a new pool, then any calls of the strategy and any operations of others on its pool (Spec/Strategy.lean, Runs); the swapping strategy needs different token names and balances below 2^160. "
c("C39","proved",["C39_init","C39_rebalance","C39_costs"],RN+"the balance equation holds in the integers, so no subtraction wraps")
c("C40","proved",["C40_pool","C40_amounts","C40_again","C40_twice"],RN+"C40_amounts needs positions with different records (C31); C40_twice shows that the claim about a second BurnAll is false for the three strategies that keep their list")
c("C41","proved",["C41_amounts","C41_burn","C41_burnAll"],RN+"GetAmounts is a function of the state in the model, so it changes nothing")
c("C42","proved",["C42_wellformed","C42_init","C42_rebalance","C42_constant"],RN+"documented ranges: Spec/Strategy.lean InitRanges and RebalanceRanges")
c("C60","proved",["C60_init","C60_rebalance"],RN)
c("C47","proved",["C47_order","C47_run"],"C47_order needs no assumption on the times; for the plain replay see C51.")
c("C48","proved",["C47_run","C48_start","C48_count","C48_due","C48_dense"],"Times within 64 bits (Clock).")
c("C49","proved",["C47_run","C49_due","C49_never_early","C49_dense"],"Times within 64 bits (Clock).")
c("C50","proved",["C47_run","C50_due","C50_every"],"C50_every: with real timestamps the interval has no effect.")
c("C51","proved",["C51_hold"],"")
c("C61","proved",["C61_runs","C61_final"],"")
c("C62","proved",["C62_create"],"Capacities too large for the machine are not modelled.")
c("C63","proved",["C63_recorded","C63_last","C63_value","C63_wraps"],"C63_wraps: the bound on the price is needed.")
c("C52","proved",["C52_results","C52_once","C52_no_panic","C52_batch","C52_no_deadlock","C52_terminates","C52_main"],"For every number of simulations and batch size; simulations run in private steps (no sharing between pools: C34).")
c("C53","proved",["C53_pow","C53_negative","C53_diverges"],"")
c("C54","proved",["C54_drawdown","C54_exact","C54_short","C54_nan"],"With float64 rounding (53-bit significand, unlimited exponent).")
c("C55","proved",["C55_series"],"")
c("C64","proved",["C64_std","C64_nonneg"],"Real arithmetic: float rounding and math.Log are not modelled.")
c("C65","proved",["C65_down","C65_zero"],"Real arithmetic: float rounding and math.Log are not modelled.")
c("C66","proved",["C66_var"],"Real arithmetic: float rounding and math.Log are not modelled.")
c("C67","proved",["C67_return"],"With float64 rounding.")
c("C68","proved",["C68_report"],"")
c("C56","proved",["C56_text","C56_parse","C56_amount","C56_swap","C56_mint_burn","C56_flash","C56_types","C56_replay"],"Decimal texts character by character. The JSON syntax between the struct TransactionInput and the file is not modelled; a text that is not a number is given an arbitrary value (math/big leaves it undefined).")
c("C57","proved",["C57_covered","C57_never_negative","C57_payable","C57_collision"],NB+"cash, claims and histories are defined in Spec/Cash.lean; growth counters may wrap around; C57_collision is a concrete history with two ranges on negative ticks that share a record, in which the pool pays out more than it got")
c("C69","proved",["C69_bitwise","C69_length","C69_uint64","C69_byte","C69_extendSign"],"")
c("C70","proved",["C70_mulMod","C70_reciprocal","C70_withReciprocal"],"All words of the Newton steps and of the reduction are modelled; fuel 9 for the correction loop, proved enough.")
c("C71","proved",["C71_add_sub","C71_mul","C71_div_mod","C71_modular","C71_shifts","C71_bitwise","C71_exp_sqrt_set"],"Memory model: a heap of 256-bit cells; word-by-word methods read and write single words. No hypothesis separates the pointers.")
c("C72","proved",["C72_path","C72_fair","C72_cost"],NB+"sales of token0 that start at a tick with a broken downward search are excluded (there the price moves the wrong way, C37_broken); legs and paths are defined in Spec/SwapPath.lean")
c("C73","proved",["C73_no_profit","C73_direction"],NB+"sales of token0 at ticks with a broken downward search are excluded, as in C37")
c("C74","proved",["C74_history"],NB+"the number of loop iterations allowed (fuel) is the same on both sides, so one of the swaps fails to return exactly when the other does")
c("C75","proved",["C75_input","C75_output"],NB+"stated for swaps that return")
c("C76","proved",["C76_agrees","C76_constants","C76_stable","C76_price_is_shared"],"pools cloned while they have no ticks (otherwise see C34); the number given to NewPool is not assigned to, which is necessary (C76_price_is_shared)")
c("C77","proved",["C77_agrees","C77_inputs","C77_alone"],"one simulation after the other; a new pool as in main; the report of a run is computed from the recorded values (C64-C67)")
c("C78","proved",["C78_no_race","C78_results","C78_panic","C78_ends","C78_inputs"],"sequentially consistent memory (what Go guarantees for programs without races); numbers a goroutine allocates itself are in its own arena; structs and slices other than the results are held by one goroutine and are values")
c("C79","proved",["C79_same_tick","C79_greatest","C79_inverse"],"the logarithm function has no caller left in the repository; the theorem shows that replacing it by the table search changed nothing")
c("C80","proved",["C80_mint","C80_burn","C80_mintStrategy","C80_burnStrategy","C80_poke","C80_collect","C80_large","C80_stuck"],"C80_stuck is a reachable state in which a position that holds its liquidity cannot be closed; swaps are C27, flash loans C33; BurnStrategy is treated for amounts that are outstanding and for zero")
c("C81","proved",["C81_records","C81_exact","C81_large","C81_stuck"],"C81_stuck is a run in which BurnAll panics")
c("C82","proved",["C82_var","C82_down","C82_std","C82_nan","C82_report"],"math.Log is a parameter of the model, assumed accurate to one unit in the last place; overflow and subnormals cannot occur for these values and are not modelled")
c("C83","proved",["C83_all_or_nothing","C83_finite","C83_zero"],"the JSON text itself is not modelled: the file is the value that was encoded, or empty; that Encode writes nothing when a number is not finite is a fact about encoding/json")
c("C84","proved",["C84_input","C84_output","C84_skipped"],"C84_skipped shows that the condition on where the first part ends is needed; above 2^95 the code computes the price after selling token0 less precisely")
c("C85","proved",["C85_mints","C85_burns","C85_exchange","C85_once","C85_once_mint","C85_once_burn","C85_emptied"],"C85_emptied shows that the condition on shared boundaries is needed")
c("C86","proved",["C86_init","C86_rebalance","C86_unique","C86_swap_init","C86_swap_rebalance","C86_only_init","C86_only_rebalance"],"the plans are in Spec/Invest.lean; C86_only compares calls that return in both pools")
c("C87","proved",["C87_init","C87_rebalance","C87_rebalance_needs","C87_liquidity","C87_small","C87_plan","C87_fresh","C87_empty","C87_closed","C87_price"],"the conditions are in Spec/Start.lean and Spec/Total.lean; when BurnAll returns is C81")
c("C88","proved",["C88_sale","C88_iff","C88_decides","C88_capacity","C88_at","C88_broken","C88_rest","C88_fuel"],"the vocabulary is in Spec/Sale.lean; swaps of token0 with no wall between the limit and the price, and swaps of token1, are C27")
c("C89","proved",["C89_covered","C89_liquidated","C89_gain","C89_run","C89_shared"],"the vocabulary is in Spec/Gains.lean; C89_shared shows what happens without separate records (the key collision of C31)")
c("C90","proved",["C90_init","C90_rebalance","C90_swap_init","C90_swap_rebalance"],"value at a price: Spec/Value.lean; for the swapping strategy the upper bound only")
c("C91","proved",["C91_swap","C91_trades","C91_floor"],"value at a price: Spec/Value.lean; exact rationals, the fee factor included")
c("C92","proved",["C92_position","C92_later","C92_hold","C92_close"],"value at a price: Spec/Value.lean; Later describes what others do in the meantime")
c("C93","proved",["C93_both","C93_input","C93_buy","C93_sell","C93_elsewhere","C93_output_counterexample"],"Misses, SameReached, SameTrade and Elsewhere: Spec/Local.lean; C93_output_counterexample shows why exact output needs both swaps")
c("C94","proved",["C94_capital","C94_narrow","C94_low_price","C94_growth","C94_proportion","C94_concentrated"],"SideBySide and Earns: Spec/Narrow.lean; C94_low_price shows why very low prices are excluded")
c("C95","proved",["C95_schedule","C95_returns","C95_fails","C95_outcome","C95_hold","C95_valuable","C95_invaluable","C95_value"],"Valuable, Event.Fails, AllValued, EndFails: Spec/Returns.lean")
c("C96","proved",["C96_ahead","C96_prefix","C96_common","C96_same"],"SameSetup: Spec/Returns.lean")
c("C97","proved",["C97_seen","C97_average","C97_refused","C97_centre","C97_band","C97_cold","C97_flat","C97_first","C97_immediate","C97_run"],"Sees, memory, latest, squareSum: Spec/History.lean")
c("C98","proved",["C98_depth","C98_aligned","C98_buy","C98_sell","C98_deposits","C98_withdrawals","C98_output_counterexample"],"Deeper, Through, Adds, Removes: Spec/Depth.lean")
c("C99","proved",["C99_reads","C99_moved","C99_late","C99_absolute_counterexample"],"SameDeal, Moved, SameOutcome, LatePrices: Spec/Later.lean")
c("C100","proved",["C100_trade","C100_sell","C100_buy","C100_unfilled"],"clamp: Spec/Amounts.lean, tickPrice: Spec/Pool.lean")
c("C101","proved",["C101_output","C101_input","C101_least","C101_equal_counterexample"],"exact input: positive amount, exact output: negative amount (C25_calls); Further: Props/Monotone.lean; C101_equal_counterexample shows why the output asked for must be smaller")
c("C102","proved",["C102_values","C102_every","C102_prices","C102_updates","C102_bounds","C102_prices_counterexample"],"C102_prices_counterexample shows that the price interval matters to a strategy that keeps prices")
c("C103","proved",["C103_cost","C103_principal","C103_fees"],"fees under a condition on the paid amounts that rules out a full turn of a fee counter")
c("C104","proved",["C104_input","C104_output"],"compares a pool with itself at another fee rate; pools created for different fees also differ in their tick spacing")
c("C105","proved",["C105_unit","C105_longer","C105_report"],"statistics of log returns over the reals as in C64 to C66; C82 bounds the distance to float64")
c("C106","proved",["C106_init","C106_rebalance","C106_burnAll","C106_side","C106_plan"],"as in C86 for calls that return and whose liquidity fits 128 bits")
c("C107","proved",["C107_history","C107_rebalance","C107_burnAll","C107_value","C107_run"],"for calls that return on both sides, within the limits of C34; the positions open at the same time use different records (C31 says when they do)")
c("C108","proved",["C108_unary_check","C108_dual_check","C108_three_check","C108_sqrt","C108_binary_methods","C108_ternary_methods","C108_fuzz","C108_fuzz_binary","C108_fuzz_ternary","C108_short","C108_unary_finds","C108_dual_finds","C108_three_finds","C108_hasty"],"Fuzz itself only ever runs the check of Sqrt (the switch after it is not reached); the other two are proved as functions of their own. Computes1/2/3: Spec/Fuzz.lean")
c("C109","proved",["C109_token0","C109_token1","C109_left","C109_exact_output","C109_plain"],"with C57: the cash lies between the claims and the claims plus rounding. Histories: Kept in Spec/Dust.lean")
c("C110","proved",["C110_report","C110_run","C110_ticks","C110_rounding"],"the IEEE 754 model is Model/IEEE.lean; log_exists shows that a logarithm as assumed exists")
c("C111","proved",["C111_received","C111_same","C111_schedule","C111_early"],"the bounds are attained in the example: three collections pay 9, one pays 11")
c("C112","proved",["C112_more","C112_pool","C112_scale","C112_init_more","C112_init_pool","C112_wraps"],"both bounds are attained in the examples; the swapping strategy and the strategy that provides nothing are excluded from the statements about Init")
c("C113","proved",["C113_same","C113_up","C113_input","C113_output","C113_exception"],"C113_exception shows that the exception for exact output is real")
c("C114","proved",["C114_input","C114_output","C114_skipped"],"C114_skipped shows that the condition on where the first swap ends is needed")
c("C115","proved",["C115_active","C115_centred","C115_wide","C115_side","C115_band","C115_init","C115_rebalance","C115_swapped","C115_half"],"C115_half shows that the condition on the width is needed; C115_swapped that the swapping strategy can open out of range")
c("C116","proved",["C116_buyback","C116_init","C116_rebalance","C116_shrinks"],"C116_shrinks shows that a spare unit of each token is needed")
c("C117","proved",["C117_amounts","C117_same","C117_value","C117_recorded","C117_cap"],"C117_recorded is for square root prices below 2^128 and values below 2^256, as C63")
c("C118","proved",["C118_pays","C118_deposits","C118_limit","C118_rounding"],"for sales of token0 the downward search must work at the tick (as C98)")
c("C119","proved",["C119_marginal","C119_average","C119_rounding"],"")
c("C120","proved",["C120_position","C120_inside","C120_sign","C120_hold","C120_fees"],"")
c("C121","proved",["C121_gain","C121_now","C121_token0","C121_recorded","C121_close","C121_run","C121_loss","C121_round","C121_single","C121_fill","C121_shared"],"")
json.dump({"claims": C}, open('/verif/MANIFEST.json','w'), indent=1, ensure_ascii=False)
