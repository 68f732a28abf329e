import Verif.Model.History
import Verif.Props.Inputs
import Verif.Props.Assets
import Verif.Props.Evs
import Verif.Props.Balance
import Verif.Props.Results
import Verif.Props.Helpers
import Verif.Proofs.Terms
import Verif.Props.Custom
import Verif.Props.Objectives
import Verif.Proofs.ObjectiveTerms
import Verif.Proofs.Owner
import Verif.Props.CustomObjectives
import Verif.Props.Peak
import Verif.Props.Accounts
import Verif.Props.History
import Verif.Props.Standalone
import Verif.Props.Growth
import Verif.Props.Spill
import Verif.Props.FlatPrices
import Verif.Props.Adding
import Verif.Proofs.EvsFits
import Verif.Proofs.Point
import Verif.Props.Feasible
import Verif.Props.Enough
import Verif.Props.Alone
import Verif.Props.DataGen
import Verif.Proofs.Emit
import Verif.Spec.Returns
import Verif.Proofs.Checks
import Verif.Props.Returns
import Verif.Proofs.Mine
import Verif.Proofs.Vars
import Verif.Spec.Names
import Verif.Proofs.Names
import Verif.Proofs.ColumnNames
import Verif.Spec.Limit
import Verif.Proofs.Drop
import Verif.Proofs.DropRead
import Verif.Proofs.Limit
import Verif.Proofs.LimitCons
import Verif.Proofs.LimitProg
import Verif.Spec.DemoLimit
import Verif.Props.Limit
import Verif.Spec.Prices
import Verif.Proofs.Prices
import Verif.Spec.DemoPrices
import Verif.Props.Prices
import Verif.Spec.DemoGuard
import Verif.Props.Guard
import Verif.Spec.DemoAccounts
import Verif.Spec.CustomAccounts
import Verif.Proofs.CustomAccounts
import Verif.Props.CustomAccounts
import Verif.Model.Plot
import Verif.Spec.Order
import Verif.Spec.Plot
import Verif.Proofs.Plot
import Verif.Proofs.Order
import Verif.Props.Plot
import Verif.Props.PlotEvs
import Verif.Props.Order
import Verif.Spec.Losses
import Verif.Proofs.Losses
import Verif.Props.Losses
import Verif.Spec.FirstLaw
import Verif.Props.FirstLaw
import Verif.Spec.Constructors
import Verif.Props.Constructors
import Verif.Proofs.Shuffle
import Verif.Spec.Reorder
import Verif.Proofs.Reorder
import Verif.Proofs.ReorderRead
import Verif.Spec.DemoReorder
import Verif.Props.Reorder
import Verif.Proofs.Reserial
import Verif.Spec.DemoReorderCustom
import Verif.Props.ReorderCustom
import Verif.Spec.DemoDemand
import Verif.Props.Demand
import Verif.Spec.DemoWeights
import Verif.Props.Weights
import Verif.Spec.Horizon
import Verif.Proofs.Horizon
import Verif.Proofs.HorizonJoin
import Verif.Spec.DemoHorizon
import Verif.Props.Horizon
import Verif.Spec.V2g
import Verif.Proofs.V2g
import Verif.Spec.DemoV2g
import Verif.Props.V2g
import Verif.Spec.Dispatch
import Verif.Proofs.DispatchSound
import Verif.Proofs.DispatchPlan
import Verif.Proofs.DispatchPoint
import Verif.Props.Dispatch
import Verif.Spec.Resolution
import Verif.Spec.DemoFiner
import Verif.Spec.Scale
import Verif.Spec.DemoScale
import Verif.Proofs.Remap
import Verif.Proofs.Finer
import Verif.Proofs.Stretch
import Verif.Proofs.FinerPlays
import Verif.Proofs.Scale
import Verif.Props.Resolution
import Verif.Props.Scale
import Verif.Spec.Pool
import Verif.Spec.DemoPool
import Verif.Proofs.DispatchEdit
import Verif.Proofs.Pool
import Verif.Props.Pool
import Verif.Spec.Margin
import Verif.Proofs.Bump
import Verif.Proofs.Margin
import Verif.Proofs.MarginAssets
import Verif.Proofs.MarginBattery
import Verif.Spec.DemoMargin
import Verif.Props.Margin
import Verif.Spec.MarginEvs
import Verif.Proofs.MarginEvs
import Verif.Spec.DemoMarginEvs
import Verif.Props.MarginEvs
import Verif.Spec.MarginHeat
import Verif.Proofs.MarginHeat
import Verif.Spec.DemoMarginHeat
import Verif.Props.MarginHeat
import Verif.Spec.MarginSpill
import Verif.Proofs.MarginSpill
import Verif.Spec.DemoMarginSpill
import Verif.Props.MarginSpill
import Verif.Spec.Swap
import Verif.Proofs.Swap
import Verif.Proofs.Upgrade
import Verif.Spec.DemoUpgrade
import Verif.Props.Upgrade
import Verif.Proofs.DispatchCustom
import Verif.Props.DispatchCustom
import Verif.Proofs.DispatchPeak
import Verif.Spec.DemoPeak
import Verif.Props.DispatchPeak
import Verif.Spec.Tolerance
import Verif.Props.Tolerance
import Verif.Spec.Load
import Verif.Spec.DemoLoad
import Verif.Proofs.Load
import Verif.Props.Load
import Verif.Spec.Scenarios
import Verif.Spec.DemoScenarios
import Verif.Props.Scenarios
