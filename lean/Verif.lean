import Verif.Num
import Verif.NumLemmas
import Verif.Demo
import Verif.Model.Components
import Verif.Model.CheckNetwork
import Verif.Model.Simulator
import Verif.Lemmas.Lists
import Verif.Lemmas.Components
import Verif.Spec.Network
import Verif.Spec.Components
import Verif.Props.Network
import Verif.Props.Components
import Verif.Lemmas.LoadCase
import Verif.Lemmas.Transition
import Verif.Spec.Region
import Verif.Spec.Sim
import Verif.Props.LoadCase
import Verif.Props.Region
import Verif.Props.Projection
import Verif.Lemmas.Reset
import Verif.Props.Dynamics
import Verif.Props.DynamicsEx
import Verif.Model.LoadFlow
import Verif.Spec.LoadFlow
import Verif.Lemmas.LoadFlow
import Verif.Lemmas.RealPF
import Verif.Props.Jacobian
import Verif.Props.PowerFlow
import Verif.Props.Slack
import Verif.Props.Energy
import Verif.Props.Total
import Verif.Props.RealDemo
import Verif.Props.Reported
import Verif.Props.History
import Verif.Props.Reward
import Verif.Props.State
import Verif.Model.Env
import Verif.Spec.Env
import Verif.Lemmas.Env
import Verif.Lemmas.Errors
import Verif.Props.Env
import Verif.Props.EnvObs
import Verif.Props.EnvStep
import Verif.Props.EnvDemo
import Verif.Model.Anm6
import Verif.Spec.Anm6
import Verif.Props.Calendar
import Verif.Props.Anm6
import Verif.Props.Anm6Demo
import Verif.Model.Mpc
import Verif.Spec.Mpc
import Verif.Lemmas.Mpc
import Verif.Props.Mpc
import Verif.Props.MpcForecast
import Verif.Props.MpcPlan
import Verif.Props.MpcExact
import Verif.Props.MpcDemo
import Verif.Props.MpcRealDemo
import Verif.Props.Server
import Verif.Props.Anm6Net
import Verif.Props.EnvTotal
import Verif.Props.Anm6Total
import Verif.Props.Anm6Real
import Verif.Model.Render
import Verif.Spec.Render
import Verif.Props.Render
import Verif.Props.RenderEasy
import Verif.Props.RenderPage
import Verif.Props.RenderView
import Verif.Props.EnvMade
import Verif.Props.MpcEasy
import Verif.Props.Kept
import Verif.Props.MpcApplied
import Verif.Props.Stored
import Verif.Props.StoreEx
import Verif.Props.Returns
import Verif.Props.Weights
import Verif.Props.Curtail
import Verif.Props.CurtailEx
import Verif.Props.Islands
import Verif.Model.Failures
import Verif.Model.Examples
import Verif.Model.Generators
import Verif.Props.Failures
import Verif.Props.FailuresEx
import Verif.Props.EasyFacts
import Verif.Props.Turned
import Verif.Props.Examples
import Verif.Props.ExampleClock
import Verif.Props.ExampleReal
import Verif.Props.VarsFlow
import Verif.Props.ExampleVars
import Verif.Props.Clipped
import Verif.Props.Markov
import Verif.Props.MarkovEx
import Verif.Props.Leaf
import Verif.Props.EasyState
import Verif.Props.Scenarios
import Verif.Props.ResetState
import Verif.Props.ResetEasy
import Verif.Props.EasyPlay
import Verif.Props.EasyApplied
import Verif.Props.Circuit
import Verif.Props.PlayTransition
import Verif.Props.EasyPlan
import Verif.Props.EasyCases
import Verif.Props.EasyDoomed
import Verif.Props.EasyBest
import Verif.Props.EasyGoodPlan
import Verif.Props.EasyGood
import Verif.Props.Newton
import Verif.Props.Radial
import Verif.Props.RadialLoop
import Verif.Props.NewtonEasy
import Verif.Props.NewtonReset
import Verif.Props.NewtonClose
import Verif.Props.NewtonPlay
import Verif.Props.Accepted
import Verif.Props.SlackPower
import Verif.Props.Arrays
import Verif.Props.ArraysEx
import Verif.Props.DoNothing
import Verif.Props.NothingCost
import Verif.Props.Collapse
import Verif.Props.Refine
import Verif.Props.Order
import Verif.Props.Quickstart
import Verif.Model.Rounding
import Verif.Model.Scripts
import Verif.Props.Rounding
import Verif.Lemmas.Units
import Verif.Props.BaseUnits
import Verif.Props.BaseFlow
import Verif.Props.BaseEx
import Verif.Props.Renaming
import Verif.Props.RenamingEnv
import Verif.Props.RenamingEx
import Verif.Props.Monotone
import Verif.Props.MonotoneEx
import Verif.Props.Separate
import Verif.Props.MpcParams
import Verif.Props.MpcParamsEx
import Verif.Props.Totals
import Verif.Props.SplitLoad
import Verif.Props.TotalsEx
import Verif.Props.Seeds
import Verif.Props.MpcOptimum
import Verif.Props.SoftLimits
import Verif.Props.Losses
import Verif.Props.BusNames
import Verif.Props.BaseVolt
import Verif.Props.Capacity
import Verif.Props.VoltageDrop
import Verif.Props.Recompute
import Verif.Props.ImportCost
import Verif.Props.OneSolution
import Verif.Props.ExactPoint
import Verif.Props.Platforms
import Verif.Props.SameReward
import Verif.Props.SeedStart
import Verif.Props.Scripts
import Verif.Props.SimpleGrid
import Verif.Props.CustomReset
import Verif.Props.CustomPlay
import Verif.Props.CustomCollapse
import Verif.Props.SimpleCosts
import Verif.Props.CustomCosts
import Verif.Props.CustomWorst
