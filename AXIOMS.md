# Axioms of each theorem

Written by `tools/axioms.py` from `#print axioms`. P = `propext`, C = `Classical.choice`, Q = `Quot.sound`; no other axiom occurs.

| Property | Theorem | Axioms |
|---|---|---|
| C01 | `C01_add_sub_exact` | C Q P |
| C02 | `C02_mul_exact` | C Q P |
| C03 | `C03_div_mod_exact` | C Q P |
| C03 | `C03_udivrem_exact` | C Q P |
| C03 | `C03_udivrem_returns` | C Q P |
| C03 | `C03_udivrem_sound` | C Q P |
| C04 | `C04_comparisons` | C Q P |
| C04 | `C04_toInt` | C Q P |
| C05 | `C05_shifts` | C Q P |
| C06 | `C06_exp` | C Q P |
| C07 | `C07_sqrt` | C Q P |
| C08 | `C08_signed` | C Q P |
| C08 | `C08_minInt_div_neg_one` | Q P |
| C08 | `C08_addMod` | C Q P |
| C12 | `C12_muldiv_exact` | C Q P |
| C12 | `C12_muldiv_fits` | C Q P |
| C13 | `C13_panic_set` | C Q P |
| C13 | `C13_no_panic` | C Q P |
| C13 | `C13_expectation_false` | Q P |
| C13 | `words_char` | C Q P |
| C14 | `C14_table` | C Q P |
| C14 | `C14_constants` | none |
| C15 | `C15_tick_of_price` | C Q P |
| C15 | `C15_inverse` | C Q P |
| C16 | `C16_price_error` | C Q P |
| C17 | `C17_rounding` | C Q P |
| C18 | `C18_amount0` | C Q P |
| C18 | `C18_amount0_small` | C Q P |
| C18 | `C18_amount1` | C Q P |
| C18 | `C18_order` | C Q P |
| C18 | `C18_rounded` | C Q P |
| C19 | `C19_input` | C Q P |
| C19 | `C19_output` | C Q P |
| C19 | `C19_unchecked` | Q P |
| C20 | `C20_step` | C Q P |
| C20 | `C20_step_total` | C Q P |
| C21 | `C21_history` | C Q P |
| C21 | `C21_read` | C Q P |
| C21 | `C21_flag` | C Q P |
| C22 | `C22_up` | C Q P |
| C22 | `C22_down` | C Q P |
| C22 | `C22_down_wrong` | C Q P |
| C22 | `C22_down_good` | C Q P |
| C22 | `C22_empty` | P |
| C23 | `C23_active` | C Q P |
| C23 | `C23_ticks` | C Q P |
| C23 | `C23_sorted` | C Q P |
| C23 | `C23_unaligned_broken` | C Q P |
| C24 | `C24_tick_price` | C Q P |
| C25 | `C25_up` | C Q P |
| C25 | `C25_down` | C Q P |
| C25 | `C25_limit` | C Q P |
| C25 | `C25_calls` | Q P |
| C26 | `C26_exact_input` | C Q P |
| C27 | `C27_up` | C Q P |
| C27 | `C27_down` | C Q P |
| C27 | `C27_barrier` | C Q P |
| C27 | `C27_hang` | C Q P |
| C27 | `C27_hang_example` | C Q P |
| C27 | `C27_empty` | C Q P |
| C28 | `C28_inside` | C Q P |
| C28 | `C28_global` | C Q P |
| C28 | `C28_swap` | C Q P |
| C29 | `C29_payout` | C Q P |
| C29 | `C29_burn` | C Q P |
| C29 | `C29_mint` | C Q P |
| C30 | `C30_mint` | C Q P |
| C30 | `C30_burn` | C Q P |
| C30 | `C30_round_trip` | C Q P |
| C31 | `C31_key` | C Q P |
| C31 | `C31_injective` | C Q P |
| C31 | `C31_frame` | C Q P |
| C31 | `C31_shared` | C Q P |
| C32 | `C32_collect` | P |
| C32 | `C32_twice` | Q P |
| C32 | `C32_panic` | P |
| C33 | `C33_flash` | C Q P |
| C33 | `C33_returns` | C Q P |
| C33 | `C33_panic` | C Q P |
| C34 | `C34_isolated` | C Q P |
| C34 | `C34_alone` | C Q P |
| C34 | `C34_clone` | C Q P |
| C34 | `C34_main` | C Q P |
| C34 | `C34_shared` | Q P |
| C34 | `C34_shared_mint` | Q P |
| C34 | `C34_owed` | Q P |
| C35 | `C35_restore` | C Q P |
| C35 | `C35_removed` | C Q P |
| C35 | `C35_unchecked` | C Q P |
| C35 | `C35_ghost` | C Q P |
| C36 | `C36_exact_output` | C Q P |
| C36 | `C36_is_input` | Q P |
| C37 | `C37_solvent` | C Q P |
| C37 | `C37_broken` | C Q P |
| C38 | `C38_affordable` | C Q P |
| C38 | `C38_amounts` | C Q P |
| C38 | `C38_order` | C Q P |
| C38 | `C38_best` | C Q P |
| C38 | `C38_best1` | C Q P |
| C58 | `C58_msb` | C Q P |
| C09 | `C09_fromHex` | C Q P |
| C09 | `C09_hex` | C Q P |
| C09 | `C09_receiver` | C Q P |
| C09 | `C09_clean` | C Q P |
| C09 | `C09_dirty` | C Q P |
| C09 | `C09_json` | C Q P |
| C09 | `C09_tick_constants` | C Q P |
| C10 | `C10_setBytes` | C Q P |
| C10 | `C10_encode` | C Q P |
| C10 | `C10_beBytes` | C Q P |
| C10 | `C10_bytes` | C Q P |
| C10 | `C10_roundtrip` | C Q P |
| C10 | `C10_decoders` | C Q P |
| C11 | `C11_big` | C Q P |
| C59 | `C59_rlp` | C Q P |
| C43 | `C43_window` | C Q P |
| C43 | `C43_exact` | C Q P |
| C44 | `C44_average` | C Q P |
| C44 | `C44_long_history_wraps` | C Q P |
| C45 | `C45_volatility` | C Q P |
| C45 | `C45_constant` | C Q P |
| C45 | `C45_single` | C Q P |
| C46 | `C46_check` | C Q P |
| C46 | `C46_wraps` | Q P |
| C39 | `C39_init` | C Q P |
| C39 | `C39_rebalance` | C Q P |
| C39 | `C39_costs` | C Q P |
| C40 | `C40_pool` | C Q P |
| C40 | `C40_amounts` | C Q P |
| C40 | `C40_again` | C Q P |
| C40 | `C40_twice` | C Q P |
| C41 | `C41_amounts` | C Q P |
| C41 | `C41_burn` | C Q P |
| C41 | `C41_burnAll` | C Q P |
| C42 | `C42_wellformed` | C Q P |
| C42 | `C42_init` | C Q P |
| C42 | `C42_rebalance` | C Q P |
| C42 | `C42_constant` | C Q P |
| C60 | `C60_init` | C Q P |
| C60 | `C60_rebalance` | C Q P |
| C47 | `C47_order` | C Q P |
| C47 | `C47_run` | C Q P |
| C48 | `C47_run` | C Q P |
| C48 | `C48_start` | C Q P |
| C48 | `C48_count` | C Q P |
| C48 | `C48_due` | none |
| C48 | `C48_dense` | C Q P |
| C49 | `C47_run` | C Q P |
| C49 | `C49_due` | none |
| C49 | `C49_never_early` | C Q P |
| C49 | `C49_dense` | C Q P |
| C50 | `C47_run` | C Q P |
| C50 | `C50_due` | none |
| C50 | `C50_every` | C Q P |
| C51 | `C51_hold` | C Q P |
| C61 | `C61_runs` | C Q P |
| C61 | `C61_final` | C Q P |
| C62 | `C62_create` | C Q P |
| C63 | `C63_recorded` | C Q P |
| C63 | `C63_last` | C Q P |
| C63 | `C63_value` | C Q P |
| C63 | `C63_wraps` | Q P |
| C52 | `C52_results` | Q P |
| C52 | `C52_once` | C Q P |
| C52 | `C52_no_panic` | Q P |
| C52 | `C52_batch` | C Q P |
| C52 | `C52_no_deadlock` | C Q P |
| C52 | `C52_terminates` | C Q P |
| C52 | `C52_main` | C Q P |
| C53 | `C53_pow` | C Q P |
| C53 | `C53_negative` | Q P |
| C53 | `C53_diverges` | C Q P |
| C54 | `C54_drawdown` | C Q P |
| C54 | `C54_exact` | C Q P |
| C54 | `C54_short` | C Q P |
| C54 | `C54_nan` | C Q P |
| C55 | `C55_series` | Q P |
| C64 | `C64_std` | C Q P |
| C64 | `C64_nonneg` | C Q P |
| C65 | `C65_down` | C Q P |
| C65 | `C65_zero` | C Q P |
| C66 | `C66_var` | C Q P |
| C67 | `C67_return` | C Q P |
| C68 | `C68_report` | C Q P |
| C56 | `C56_text` | C Q P |
| C56 | `C56_parse` | C Q P |
| C56 | `C56_amount` | C Q P |
| C56 | `C56_swap` | C Q P |
| C56 | `C56_mint_burn` | C Q P |
| C56 | `C56_flash` | C Q P |
| C56 | `C56_types` | Q P |
| C56 | `C56_replay` | C Q P |
| C57 | `C57_covered` | C Q P |
| C57 | `C57_never_negative` | C Q P |
| C57 | `C57_payable` | C Q P |
| C57 | `C57_collision` | C Q P |
| C69 | `C69_bitwise` | C Q P |
| C69 | `C69_length` | C Q P |
| C69 | `C69_uint64` | C Q P |
| C69 | `C69_byte` | C Q P |
| C69 | `C69_extendSign` | C Q P |
| C70 | `C70_mulMod` | C Q P |
| C70 | `C70_reciprocal` | C Q P |
| C70 | `C70_withReciprocal` | C Q P |
| C71 | `C71_add_sub` | C Q P |
| C71 | `C71_mul` | C Q P |
| C71 | `C71_div_mod` | C Q P |
| C71 | `C71_modular` | C Q P |
| C71 | `C71_shifts` | C Q P |
| C71 | `C71_bitwise` | C Q P |
| C71 | `C71_exp_sqrt_set` | C Q P |
| C72 | `C72_path` | C Q P |
| C72 | `C72_fair` | C Q P |
| C72 | `C72_cost` | C Q P |
| C73 | `C73_no_profit` | C Q P |
| C73 | `C73_direction` | C Q P |
| C74 | `C74_history` | C Q P |
| C75 | `C75_input` | C Q P |
| C75 | `C75_output` | C Q P |
| C76 | `C76_agrees` | C Q P |
| C76 | `C76_constants` | C Q P |
| C76 | `C76_stable` | C Q P |
| C76 | `C76_price_is_shared` | C Q P |
| C77 | `C77_agrees` | C Q P |
| C77 | `C77_inputs` | C Q P |
| C77 | `C77_alone` | C Q P |
| C78 | `C78_no_race` | C Q P |
| C78 | `C78_results` | C Q P |
| C78 | `C78_panic` | C Q P |
| C78 | `C78_ends` | C Q P |
| C78 | `C78_inputs` | C Q P |
| C79 | `C79_same_tick` | C Q P |
| C79 | `C79_greatest` | C Q P |
| C79 | `C79_inverse` | C Q P |
| C80 | `C80_mint` | C Q P |
| C80 | `C80_burn` | C Q P |
| C80 | `C80_mintStrategy` | C Q P |
| C80 | `C80_burnStrategy` | C Q P |
| C80 | `C80_poke` | C Q P |
| C80 | `C80_collect` | P |
| C80 | `C80_large` | C Q P |
| C80 | `C80_stuck` | Q P |
| C81 | `C81_records` | C Q P |
| C81 | `C81_exact` | C Q P |
| C81 | `C81_large` | C Q P |
| C81 | `C81_stuck` | C Q P |
| C82 | `C82_var` | C Q P |
| C82 | `C82_down` | C Q P |
| C82 | `C82_std` | C Q P |
| C82 | `C82_nan` | C Q P |
| C82 | `C82_report` | C Q P |
| C83 | `C83_all_or_nothing` | Q P |
| C83 | `C83_finite` | C Q P |
| C83 | `C83_zero` | C Q P |
| C84 | `C84_input` | C Q P |
| C84 | `C84_output` | C Q P |
| C84 | `C84_skipped` | Q P |
| C85 | `C85_mints` | C Q P |
| C85 | `C85_burns` | C Q P |
| C85 | `C85_exchange` | C Q P |
| C85 | `C85_once` | C Q P |
| C85 | `C85_once_mint` | C Q P |
| C85 | `C85_once_burn` | C Q P |
| C85 | `C85_emptied` | C Q P |
| C86 | `C86_init` | C Q P |
| C86 | `C86_rebalance` | C Q P |
| C86 | `C86_unique` | C Q P |
| C86 | `C86_swap_init` | C Q P |
| C86 | `C86_swap_rebalance` | C Q P |
| C86 | `C86_only_init` | C Q P |
| C86 | `C86_only_rebalance` | C Q P |
| C87 | `C87_init` | C Q P |
| C87 | `C87_rebalance` | C Q P |
| C87 | `C87_rebalance_needs` | C Q P |
| C87 | `C87_liquidity` | C Q P |
| C87 | `C87_small` | C Q P |
| C87 | `C87_plan` | C Q P |
| C87 | `C87_fresh` | C Q P |
| C87 | `C87_empty` | C Q P |
| C87 | `C87_closed` | C Q P |
| C87 | `C87_price` | Q P |
| C88 | `C88_sale` | C Q P |
| C88 | `C88_iff` | C Q P |
| C88 | `C88_decides` | C Q P |
| C88 | `C88_capacity` | C Q P |
| C88 | `C88_at` | C Q P |
| C88 | `C88_broken` | C Q P |
| C88 | `C88_rest` | C Q P |
| C88 | `C88_fuel` | Q P |
| C89 | `C89_covered` | C Q P |
| C89 | `C89_liquidated` | C Q P |
| C89 | `C89_gain` | C Q P |
| C89 | `C89_run` | C Q P |
| C89 | `C89_shared` | C Q P |
| C90 | `C90_init` | C Q P |
| C90 | `C90_rebalance` | C Q P |
| C90 | `C90_swap_init` | C Q P |
| C90 | `C90_swap_rebalance` | C Q P |
| C91 | `C91_swap` | C Q P |
| C91 | `C91_trades` | C Q P |
| C91 | `C91_floor` | C Q P |
| C92 | `C92_position` | C Q P |
| C92 | `C92_later` | C Q P |
| C92 | `C92_hold` | C Q P |
| C92 | `C92_close` | C Q P |
| C93 | `C93_both` | C Q P |
| C93 | `C93_input` | C Q P |
| C93 | `C93_buy` | C Q P |
| C93 | `C93_sell` | C Q P |
| C93 | `C93_elsewhere` | C Q P |
| C93 | `C93_output_counterexample` | C Q P |
| C94 | `C94_capital` | C Q P |
| C94 | `C94_narrow` | C Q P |
| C94 | `C94_low_price` | Q P |
| C94 | `C94_growth` | C Q P |
| C94 | `C94_proportion` | C Q P |
| C94 | `C94_concentrated` | C Q P |
| C95 | `C95_schedule` | C Q P |
| C95 | `C95_returns` | C Q P |
| C95 | `C95_fails` | C Q P |
| C95 | `C95_outcome` | C Q P |
| C95 | `C95_hold` | C Q P |
| C95 | `C95_valuable` | C Q P |
| C95 | `C95_invaluable` | Q P |
| C95 | `C95_value` | C Q P |
| C96 | `C96_ahead` | C Q P |
| C96 | `C96_prefix` | C Q P |
| C96 | `C96_common` | C Q P |
| C96 | `C96_same` | C Q P |
| C97 | `C97_seen` | C Q P |
| C97 | `C97_average` | C Q P |
| C97 | `C97_refused` | C Q P |
| C97 | `C97_centre` | C Q P |
| C97 | `C97_band` | C Q P |
| C97 | `C97_cold` | C Q P |
| C97 | `C97_flat` | C Q P |
| C97 | `C97_first` | C Q P |
| C97 | `C97_immediate` | C Q P |
| C97 | `C97_run` | C Q P |
| C98 | `C98_depth` | C Q P |
| C98 | `C98_aligned` | C Q P |
| C98 | `C98_buy` | C Q P |
| C98 | `C98_sell` | C Q P |
| C98 | `C98_deposits` | C Q P |
| C98 | `C98_withdrawals` | C Q P |
| C98 | `C98_output_counterexample` | C Q P |
| C99 | `C99_reads` | C Q P |
| C99 | `C99_moved` | C Q P |
| C99 | `C99_late` | C Q P |
| C99 | `C99_absolute_counterexample` | C Q P |
| C100 | `C100_trade` | C Q P |
| C100 | `C100_sell` | C Q P |
| C100 | `C100_buy` | C Q P |
| C100 | `C100_unfilled` | C Q P |
| C101 | `C101_output` | C Q P |
| C101 | `C101_input` | C Q P |
| C101 | `C101_least` | C Q P |
| C101 | `C101_equal_counterexample` | C Q P |
| C102 | `C102_values` | C Q P |
| C102 | `C102_every` | C Q P |
| C102 | `C102_prices` | C Q P |
| C102 | `C102_updates` | C Q P |
| C102 | `C102_bounds` | C Q P |
| C102 | `C102_prices_counterexample` | C Q P |
| C103 | `C103_cost` | C Q P |
| C103 | `C103_principal` | C Q P |
| C103 | `C103_fees` | C Q P |
| C104 | `C104_input` | C Q P |
| C104 | `C104_output` | C Q P |
| C105 | `C105_unit` | C Q P |
| C105 | `C105_longer` | C Q P |
| C105 | `C105_report` | C Q P |
| C106 | `C106_init` | C Q P |
| C106 | `C106_rebalance` | C Q P |
| C106 | `C106_burnAll` | C Q P |
| C106 | `C106_side` | C Q P |
| C106 | `C106_plan` | C Q P |
| C107 | `C107_history` | C Q P |
| C107 | `C107_rebalance` | C Q P |
| C107 | `C107_burnAll` | C Q P |
| C107 | `C107_value` | C Q P |
| C107 | `C107_run` | C Q P |
| C108 | `C108_unary_check` | C Q P |
| C108 | `C108_dual_check` | C Q P |
| C108 | `C108_three_check` | C Q P |
| C108 | `C108_sqrt` | C Q P |
| C108 | `C108_binary_methods` | C Q P |
| C108 | `C108_ternary_methods` | C Q P |
| C108 | `C108_fuzz` | C Q P |
| C108 | `C108_fuzz_binary` | C Q P |
| C108 | `C108_fuzz_ternary` | C Q P |
| C108 | `C108_short` | C Q P |
| C108 | `C108_unary_finds` | C Q P |
| C108 | `C108_dual_finds` | C Q P |
| C108 | `C108_three_finds` | C Q P |
| C108 | `C108_hasty` | C Q P |
| C109 | `C109_token0` | C Q P |
| C109 | `C109_token1` | C Q P |
| C109 | `C109_left` | C Q P |
| C109 | `C109_exact_output` | C Q P |
| C109 | `C109_plain` | C Q P |
| C110 | `C110_report` | C Q P |
| C110 | `C110_run` | C Q P |
| C110 | `C110_ticks` | C Q P |
| C110 | `C110_rounding` | C Q P |
| C111 | `C111_received` | C Q P |
| C111 | `C111_same` | C Q P |
| C111 | `C111_schedule` | C Q P |
| C111 | `C111_early` | Q P |
| C112 | `C112_more` | C Q P |
| C112 | `C112_pool` | C Q P |
| C112 | `C112_scale` | C Q P |
| C112 | `C112_init_more` | C Q P |
| C112 | `C112_init_pool` | C Q P |
| C112 | `C112_wraps` | Q P |
| C113 | `C113_same` | C Q P |
| C113 | `C113_up` | C Q P |
| C113 | `C113_input` | C Q P |
| C113 | `C113_output` | C Q P |
| C113 | `C113_exception` | Q P |
| C114 | `C114_input` | C Q P |
| C114 | `C114_output` | C Q P |
| C114 | `C114_skipped` | Q P |
| C115 | `C115_active` | C Q P |
| C115 | `C115_centred` | C Q P |
| C115 | `C115_wide` | C Q P |
| C115 | `C115_side` | C Q P |
| C115 | `C115_band` | C Q P |
| C115 | `C115_init` | C Q P |
| C115 | `C115_rebalance` | C Q P |
| C115 | `C115_swapped` | C Q P |
| C115 | `C115_half` | C Q P |
| C116 | `C116_buyback` | C Q P |
| C116 | `C116_init` | C Q P |
| C116 | `C116_rebalance` | C Q P |
| C116 | `C116_shrinks` | C Q P |
| C117 | `C117_amounts` | C Q P |
| C117 | `C117_same` | C Q P |
| C117 | `C117_value` | C Q P |
| C117 | `C117_recorded` | C Q P |
| C117 | `C117_cap` | C Q P |
| C118 | `C118_pays` | C Q P |
| C118 | `C118_deposits` | C Q P |
| C118 | `C118_limit` | C Q P |
| C118 | `C118_rounding` | C Q P |
| C119 | `C119_marginal` | C Q P |
| C119 | `C119_average` | C Q P |
| C119 | `C119_rounding` | C Q P |
| C120 | `C120_position` | C Q P |
| C120 | `C120_inside` | C Q P |
| C120 | `C120_sign` | C Q P |
| C120 | `C120_hold` | C Q P |
| C120 | `C120_fees` | C Q P |
| C121 | `C121_gain` | C Q P |
| C121 | `C121_now` | C Q P |
| C121 | `C121_token0` | C Q P |
| C121 | `C121_recorded` | C Q P |
| C121 | `C121_close` | C Q P |
| C121 | `C121_run` | C Q P |
| C121 | `C121_loss` | C Q P |
| C121 | `C121_round` | C Q P |
| C121 | `C121_single` | C Q P |
| C121 | `C121_fill` | C Q P |
| C121 | `C121_shared` | C Q P |
