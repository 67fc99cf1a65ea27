import Verif.Model.Prelude
import Verif.Model.Types
import Verif.Model.Experience
import Verif.Model.Interp
import Verif.Model.Tax
import Verif.Model.Gettsim
import Verif.Model.NonEmployment
import Verif.Model.Utility
import Verif.Model.StateSpace
import Verif.Model.Rng
import Verif.Model.Exog
import Verif.Model.Solve
import Verif.Model.Simulate
import Verif.Model.Processing
import Verif.Model.Api
import Verif.Model.Effects
import Verif.Model.RealInst
import Verif.Spec.Accuracy
import Verif.Spec.Attributes
import Verif.Spec.Bellman
import Verif.Spec.Benefits
import Verif.Spec.Career
import Verif.Spec.Effects
import Verif.Spec.Exact
import Verif.Spec.Exogenous
import Verif.Spec.Experience
import Verif.Spec.Feasible
import Verif.Spec.Files
import Verif.Spec.FrameRows
import Verif.Spec.Independence
import Verif.Spec.Initial
import Verif.Spec.Inputs
import Verif.Spec.Integral
import Verif.Spec.Interp
import Verif.Spec.Lifetime
import Verif.Spec.Output
import Verif.Spec.Panel
import Verif.Spec.PanelCareer
import Verif.Spec.Plans
import Verif.Spec.Quadrature
import Verif.Spec.RandomInit
import Verif.Spec.Realised
import Verif.Spec.Rebuilt
import Verif.Spec.Reference
import Verif.Spec.Rounded
import Verif.Spec.Session
import Verif.Spec.Simulated
import Verif.Spec.Sparse
import Verif.Spec.SpecDict
import Verif.Spec.StateSpace
import Verif.Spec.Statics
import Verif.Spec.Tables
import Verif.Spec.Tax
import Verif.Spec.Timing
import Verif.Spec.Truth
import Verif.Spec.Units
import Verif.Spec.Vocabulary
import Verif.Proof.Agreement
import Verif.Proof.Api
import Verif.Proof.Attributes
import Verif.Proof.Beliefs
import Verif.Proof.Benefits
import Verif.Proof.Binary
import Verif.Proof.Dict
import Verif.Proof.Draws
import Verif.Proof.Effects
import Verif.Proof.Except
import Verif.Proof.Exogenous
import Verif.Proof.Experience
import Verif.Proof.Feasible
import Verif.Proof.FrameRows
import Verif.Proof.GaussHermite
import Verif.Proof.GridError
import Verif.Proof.Independence
import Verif.Proof.Initial
import Verif.Proof.Integral
import Verif.Proof.Interp
import Verif.Proof.Lifetime
import Verif.Proof.Near
import Verif.Proof.NearFlow
import Verif.Proof.NearSim
import Verif.Proof.Normal
import Verif.Proof.Panel
import Verif.Proof.PanelStatics
import Verif.Proof.Params
import Verif.Proof.Partner
import Verif.Proof.Patience
import Verif.Proof.Piecewise
import Verif.Proof.Plans
import Verif.Proof.Probabilities
import Verif.Proof.Quadrature
import Verif.Proof.RandomFiles
import Verif.Proof.RandomFrame
import Verif.Proof.RandomSpec
import Verif.Proof.ReadSpec
import Verif.Proof.ReadTax
import Verif.Proof.Reference
import Verif.Proof.Rounded
import Verif.Proof.RoundedSolve
import Verif.Proof.RoundedSum
import Verif.Proof.Session
import Verif.Proof.Shocks
import Verif.Proof.Sim
import Verif.Proof.SimInit
import Verif.Proof.SimOutcome
import Verif.Proof.SimRows
import Verif.Proof.Slopes
import Verif.Proof.Solve
import Verif.Proof.SolveBounds
import Verif.Proof.Sparse
import Verif.Proof.StateSpace
import Verif.Proof.Statics
import Verif.Proof.Store
import Verif.Proof.Tax
import Verif.Proof.Timing
import Verif.Proof.Total
import Verif.Proof.Truth
import Verif.Proof.Types
import Verif.Proof.Units
import Verif.Proof.Usable
import Verif.Props.Agreement
import Verif.Props.Api
import Verif.Props.Attributes
import Verif.Props.Beliefs
import Verif.Props.Benefits
import Verif.Props.ChoiceShares
import Verif.Props.ChoiceSharesExample
import Verif.Props.Composition
import Verif.Props.CompositionExample
import Verif.Props.Conditional
import Verif.Props.ConditionalExample
import Verif.Props.Cutoff
import Verif.Props.CutoffExample
import Verif.Props.Effects
import Verif.Props.Entry
import Verif.Props.Exogenous
import Verif.Props.Experience
import Verif.Props.Feasible
import Verif.Props.Files
import Verif.Props.FrameRows
import Verif.Props.Gettsim
import Verif.Props.GridError
import Verif.Props.Independence
import Verif.Props.Indifference
import Verif.Props.IndifferenceExample
import Verif.Props.Initial
import Verif.Props.Integral
import Verif.Props.Interp
import Verif.Props.Lifetime
import Verif.Props.Likelihood
import Verif.Props.LikelihoodExample
import Verif.Props.Machine
import Verif.Props.MachineCareer
import Verif.Props.MachineCareerExample
import Verif.Props.MachineChoice
import Verif.Props.MachinePanel
import Verif.Props.MachinePanelExample
import Verif.Props.Moments
import Verif.Props.MomentsExample
import Verif.Props.NearOptimal
import Verif.Props.NegativeEnd
import Verif.Props.PanelExample
import Verif.Props.PanelStatics
import Verif.Props.Patience
import Verif.Props.Plans
import Verif.Props.Preferences
import Verif.Props.Probabilities
import Verif.Props.Processing
import Verif.Props.Quadrature
import Verif.Props.RandomInit
import Verif.Props.Realised
import Verif.Props.RealisedExample
import Verif.Props.Rebuilt
import Verif.Props.Reference
import Verif.Props.Rounded
import Verif.Props.RoundedChoice
import Verif.Props.RoundedError
import Verif.Props.RoundedShares
import Verif.Props.RoundedSolve
import Verif.Props.RoundedTax
import Verif.Props.SimExample
import Verif.Props.Simulation
import Verif.Props.Solve
import Verif.Props.Sparse
import Verif.Props.StateSpace
import Verif.Props.Statics
import Verif.Props.Tables
import Verif.Props.Tax
import Verif.Props.Threshold
import Verif.Props.Timing
import Verif.Props.TrueChoice
import Verif.Props.TrueChoiceExample
import Verif.Props.Truth
import Verif.Props.TypeCount
import Verif.Props.Types
import Verif.Props.Units
import Verif.Props.Wages
