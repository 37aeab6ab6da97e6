import Verif.Model.Numpy
import Verif.Model.Population
import Verif.Spec.Records
import Verif.Proofs.Numpy
import Verif.Proofs.Population
import Verif.Props.Population
import Verif.Proofs.Dominance
import Verif.Props.Archive
import Verif.Proofs.EA
import Verif.Props.Loop
import Verif.Props.Interaction
import Verif.Proofs.RefVectors
import Verif.Props.RefVectors
import Verif.Props.Rotation
import Verif.Model.APD
import Verif.Props.APD
import Verif.Model.NSGA3
import Verif.Spec.NSGA3
import Verif.Proofs.NSGA3
import Verif.Props.NSGA3
import Verif.Model.MOEAD
import Verif.Spec.MOEAD
import Verif.Proofs.MOEAD
import Verif.Props.MOEAD
import Verif.Model.Recombination
import Verif.Spec.Recombination
import Verif.Proofs.Recombination
import Verif.Props.Recombination
import Verif.Proofs.Bounds
import Verif.Props.Bounds
import Verif.Model.Indicator
import Verif.Spec.Indicator
import Verif.Proofs.Indicator
import Verif.Props.Indicator
import Verif.Model.PPGA
import Verif.Spec.PPGA
import Verif.Proofs.PPGA
import Verif.Props.PPGA
import Verif.Model.BioGP
import Verif.Spec.BioGP
import Verif.Proofs.BioGP
import Verif.Props.BioGP
import Verif.Model.Management
import Verif.Spec.Management
import Verif.Proofs.Management
import Verif.Props.Management
import Verif.Model.IOPIS
import Verif.Spec.IOPIS
import Verif.Props.IOPIS
import Verif.Model.Runs
import Verif.Proofs.Runs
import Verif.Props.Runs
import Verif.Props.InForce
import Verif.Props.ArchiveRun
import Verif.Props.EvoNets
import Verif.Props.Angles
import Verif.Model.OtherEAs
import Verif.Props.OtherEAs
import Verif.Model.MoeadRun
import Verif.Props.MoeadRun
import Verif.Model.BioGPPredict
import Verif.Spec.BioGPPredict
import Verif.Props.BioGPPredict
import Verif.Model.Focused
import Verif.Spec.Focused
import Verif.Props.Focused
import Verif.Model.IndicatorRun
import Verif.Spec.IndicatorRun
import Verif.Props.IndicatorRun
import Verif.Spec.Coverage
import Verif.Props.Coverage
import Verif.Props.Elitism
import Verif.Model.APDVariants
import Verif.Spec.APDVariants
import Verif.Props.APDVariants
import Verif.Model.Training
import Verif.Props.Training
import Verif.Props.TrainingDemo
import Verif.Model.NewRV
import Verif.Spec.NewRV
import Verif.Props.NewRV
import Verif.Spec.LeastSquares
import Verif.Props.LeastSquares
import Verif.Model.BioGPTrain
import Verif.Spec.BioGPTrain
import Verif.Props.BioGPTrain
import Verif.Props.BioGPTrainDemo
import Verif.Model.Animate
import Verif.Spec.Animate
import Verif.Props.Animate
import Verif.Model.FunctionMating
import Verif.Spec.FunctionMating
import Verif.Props.FunctionMating
import Verif.Model.Sharing
import Verif.Spec.Sharing
import Verif.Props.Sharing
import Verif.Model.Reports
import Verif.Spec.Reports
import Verif.Props.Reports
import Verif.Model.Answers
import Verif.Spec.Invariance
import Verif.Proofs.Image
import Verif.Props.Invariance
import Verif.Spec.Steering
import Verif.Props.Steering
import Verif.Spec.Distribution
import Verif.Props.Distribution
import Verif.Proofs.ImageMore
import Verif.Spec.Constraints
import Verif.Props.Constraints
import Verif.Spec.Bookkeeping
import Verif.Props.Bookkeeping
import Verif.Props.Grouping
import Verif.Spec.BlackBox
import Verif.Props.BlackBox
import Verif.Spec.Scalarizing
import Verif.Props.InvarianceMore
import Verif.Spec.HandOver
import Verif.Props.HandOver
import Verif.Spec.Search
import Verif.Proofs.Search
import Verif.Props.Search
import Verif.Model.Activation
import Verif.Props.Sensitivity
import Verif.Spec.Losses
import Verif.Props.Losses
import Verif.Spec.Lottery
import Verif.Props.Lottery
import Verif.Spec.Convergence
import Verif.Proofs.Convergence
import Verif.Props.Convergence
import Verif.Spec.Order
import Verif.Props.Order
import Verif.Model.Constructors
import Verif.Spec.Calls
import Verif.Props.Constructors
import Verif.Props.ConvergenceMoead
import Verif.Spec.Retry
import Verif.Props.Retry
import Verif.Spec.RetryMore
import Verif.Props.IndicatorMore
import Verif.Props.RetryMore
import Verif.Spec.Floats
import Verif.Proofs.Floats
import Verif.Model.Floats
import Verif.Props.Floats
import Verif.Model.NaNSelect
import Verif.Model.NaNIndicator
import Verif.Model.NaNNsga
import Verif.Proofs.NaNSelect
import Verif.Props.NaNSelect
import Verif.Model.InfSelect
import Verif.Proofs.InfSelect
import Verif.Props.InfSelect
import Verif.Model.InfIndicator
import Verif.Props.InfIndicator
import Verif.Model.InfMoead
import Verif.Props.InfMoead
import Verif.Model.InfNsga
import Verif.Props.InfNsga
import Verif.Props.NaNIndicator
import Verif.Props.NaNNsga
import Verif.Props.InfNsgaNumbers
import Verif.Props.InteractionConstructed
import Verif.Props.InfNiching
