import Verif.Props.Uint256
import Verif.Props.Bitwise
import Verif.Props.FullMath
import Verif.Props.TickMath
import Verif.Props.TickLog
import Verif.Props.Total
import Verif.Props.Stats64
import Verif.Props.Split
import Verif.Props.Order
import Verif.Props.Invest
import Verif.Props.Start
import Verif.Props.Sale
import Verif.Props.Gains
import Verif.Props.Value
import Verif.Props.Local
import Verif.Props.Narrow
import Verif.Props.Returns
import Verif.Props.History
import Verif.Props.Depth
import Verif.Props.Later
import Verif.Props.RangeOrder
import Verif.Props.SaleReturns
import Verif.Props.Quote
import Verif.Props.Settings
import Verif.Props.Parts
import Verif.Props.FeeRate
import Verif.Props.Report
import Verif.Props.LimitOrder
import Verif.Props.Elsewhere
import Verif.Props.Fuzz
import Verif.Props.Dust
import Verif.Props.IEEE
import Verif.Props.Harvest
import Verif.Props.Capital
import Verif.Props.Limit
import Verif.Props.Resume
import Verif.Props.InRange
import Verif.Props.Reinvest
import Verif.Props.Mark
import Verif.Props.Slippage
import Verif.Props.Marginal
import Verif.Props.Divergence
import Verif.Props.Periods
import Verif.Props.Distinct
import Verif.Props.RunsAlike
import Verif.Props.TickRound
import Verif.Props.SqrtPriceMath
import Verif.Props.SwapMath
import Verif.Props.LiquidityAmounts
import Verif.Props.TickData
import Verif.Props.Pool
import Verif.Props.Growth
import Verif.Props.Positions
import Verif.Props.Solvency
import Verif.Props.Conversion
import Verif.Props.Prices
import Verif.Props.Strategy
import Verif.Props.Executor
import Verif.Props.Main
import Verif.Props.Parallel
import Verif.Props.Transaction
import Verif.Spec.Rights
import Verif.Proofs.Fits
import Verif.Proofs.Tri
import Verif.Model.PtrMath
import Verif.Proofs.PtrMath
import Verif.Model.PtrPool
import Verif.Proofs.PtrTicks
import Verif.Proofs.PtrPos
import Verif.Proofs.PtrSwap
import Verif.Spec.PtrWorld
import Verif.Proofs.PtrWorld
import Verif.Props.PtrWorld
import Verif.Model.PtrStrategy
import Verif.Proofs.PtrPrices
import Verif.Proofs.PtrStrat
import Verif.Proofs.PtrOpen
import Verif.Proofs.PtrExec
import Verif.Spec.PtrRuns
import Verif.Props.PtrRuns
import Verif.Props.Heap
import Verif.Props.Cash
import Verif.Props.InPlace
import Verif.Props.SwapPath
import Verif.Props.Market
import Verif.Props.Monotone
import Verif.Model.PtrMain
import Verif.Spec.PtrMain
import Verif.Proofs.Conc
import Verif.Proofs.ConcEnd
import Verif.Props.PtrMain
