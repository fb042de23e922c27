import Verif.Model.SqrtPriceMath
/-! # `lib/liquidity_amounts` -/
namespace Uni
namespace LiquidityAmounts
open U256 FullMath SqrtPriceMath

/-- `/repo/lib/liquidity_amounts/liquidity_amounts.go:9-15` `getLiquidityForAmount0`. -/
def getLiquidityForAmount0 (a b amount0 : U256) : Go U256 := do
  let ab := order a b
  let intermediate ← mulDiv ab.1 ab.2 Cons.q96
  mulDiv amount0 intermediate (sub ab.2 ab.1)

/-- `/repo/lib/liquidity_amounts/liquidity_amounts.go:17-22` `getLiquidityForAmount1`. -/
def getLiquidityForAmount1 (a b amount1 : U256) : Go U256 :=
  let ab := order a b
  mulDiv amount1 Cons.q96 (sub ab.2 ab.1)

/-- `/repo/lib/liquidity_amounts/liquidity_amounts.go:24-43` `GetLiquidityForAmount`. -/
def getLiquidityForAmount (p a b amount0 amount1 : U256) : Go U256 :=
  let ab := order a b
  if cmp p ab.1 ≤ 0 then getLiquidityForAmount0 ab.1 ab.2 amount0
  else if cmp p ab.2 < 0 then do
    let liquidity0 ← getLiquidityForAmount0 p ab.2 amount0
    let liquidity1 ← getLiquidityForAmount1 ab.1 p amount1
    return if cmp liquidity0 liquidity1 < 0 then liquidity0 else liquidity1
  else getLiquidityForAmount1 ab.1 ab.2 amount1

/-- `/repo/lib/liquidity_amounts/liquidity_amounts.go:45-53` `getAmount0ForLiquidity`. -/
def getAmount0ForLiquidity (a b liquidity : U256) : Go U256 := do
  let ab := order a b
  let temp1 := lsh liquidity 96
  let temp2 := sub ab.2 ab.1
  let temp3 ← mulDiv temp1 temp2 ab.2
  div temp3 ab.1

/-- `/repo/lib/liquidity_amounts/liquidity_amounts.go:55-61` `getAmount1ForLiquidity`. -/
def getAmount1ForLiquidity (a b liquidity : U256) : Go U256 :=
  let ab := order a b
  mulDiv liquidity (sub ab.2 ab.1) Cons.q96

/-- `/repo/lib/liquidity_amounts/liquidity_amounts.go:63-77` `GetAmountsForLiquidity`. -/
def getAmountsForLiquidity (p a b liquidity : U256) : Go (U256 × U256) :=
  let ab := order a b
  if cmp p ab.1 ≤ 0 then do
    let amount0 ← getAmount0ForLiquidity ab.1 ab.2 liquidity
    return (amount0, zero)
  else if cmp p ab.2 < 0 then do
    let amount0 ← getAmount0ForLiquidity p ab.2 liquidity
    let amount1 ← getAmount1ForLiquidity ab.1 p liquidity
    return (amount0, amount1)
  else do
    let amount1 ← getAmount1ForLiquidity ab.1 ab.2 liquidity
    return (zero, amount1)

end LiquidityAmounts
end Uni
