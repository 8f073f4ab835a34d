import Verif.Model.BaseEnv
import Verif.Model.Rollout
import Verif.Model.Wrappers
import Verif.Lemmas.Env
import Verif.Lemmas.Episode
import Verif.Props.Episode
import Verif.Props.EpisodeGaps
import Verif.Props.Rollout
import Verif.Props.Wrappers
import Verif.Props.Frames
import Verif.Props.Overlap
import Verif.Props.Metrics
import Verif.Props.Offroad
import Verif.Props.Delta
import Verif.Props.Bicycle
import Verif.Props.Reward
import Verif.Props.Discretizer
import Verif.Props.StateDyn
import Verif.Props.Planning
import Verif.Props.PlanningMetrics
import Verif.Props.PlanningGaps
import Verif.Props.Idm
import Verif.Props.IdmSpeed
import Verif.Props.Following
import Verif.Model.Observation
import Verif.Model.Nd
import Verif.Model.Dataset
import Verif.Spec.Observation
import Verif.Spec.Dataset
import Verif.Props.Roadgraph
import Verif.Props.Observation
import Verif.Props.ActionShape
import Verif.Props.Padding
import Verif.Props.PaddingPlanning
import Verif.Props.Axes
import Verif.Props.ArrayOps
import Verif.Props.Files
import Verif.Props.Dataset
import Verif.Props.DeltaEpisode
import Verif.Props.Womd
import Verif.Props.TimeTensors
import Verif.Props.Config
import Verif.Model.Viz
import Verif.Spec.Viz
import Verif.Props.Viz
import Verif.Props.VizScene
import Verif.Model.Batch
import Verif.Model.BatchMetrics
import Verif.Spec.Batch
import Verif.Spec.BatchMetrics
import Verif.Lemmas.Batch
import Verif.Props.Batch
import Verif.Props.BatchTime
import Verif.Props.BatchMetrics
import Verif.Props.BatchRoute
import Verif.Model.Specs
import Verif.Model.BatchReward
import Verif.Spec.Specs
import Verif.Props.Specs
import Verif.Props.Limits
import Verif.Props.BatchReward
import Verif.Model.Equality
import Verif.Model.Validate
import Verif.Spec.Equality
import Verif.Spec.Validate
import Verif.Props.Equality
import Verif.Props.Validate
import Verif.Model.Loader
import Verif.Spec.Loader
import Verif.Props.Loader
import Verif.Model.DatasetConfig
import Verif.Model.Generator
import Verif.Spec.Generator
import Verif.Props.Generator
import Verif.Props.GeneratorBatch
import Verif.Props.GeneratorYields
import Verif.Props.GeneratorRun
import Verif.Model.Pipeline
import Verif.Spec.Pipeline
import Verif.Props.Pipeline
import Verif.Props.Interleave
import Verif.Props.ReadingLemmas
import Verif.Props.Reading
import Verif.Model.BatchRollout
import Verif.Spec.BatchRollout
import Verif.Props.BatchRollout
import Verif.Props.BatchExpert
import Verif.Props.BatchRolloutAgrees
import Verif.Props.BatchLogReplay
import Verif.Model.BatchPlanning
import Verif.Spec.BatchPlanning
import Verif.Spec.BatchPlanRollout
import Verif.Props.BatchPlanning
import Verif.Props.BatchPlanningMetrics
import Verif.Props.BatchPlanRollout
import Verif.Props.BatchPlanReplay
import Verif.Model.BatchObservation
import Verif.Spec.BatchObservation
import Verif.Props.BatchObservation
import Verif.Props.BatchObserve
import Verif.Props.BatchViz
import Verif.Props.BatchSeen
import Verif.Spec.EndToEnd
import Verif.Props.EndToEnd
import Verif.Lemmas.Broadcast
import Verif.Model.BatchWaypoint
import Verif.Props.BatchWaypoint
import Verif.Props.BatchIdm
import Verif.Model.Float
import Verif.Lemmas.Float
import Verif.Model.Machine
import Verif.Model.MachineGeometry
import Verif.Props.WrapMachine
import Verif.Props.ReplayMachine
import Verif.Props.DiscretizerMachine
import Verif.Props.OverlapMachine
import Verif.Model.MachineBicycle
import Verif.Props.BicycleMachineNumbers
import Verif.Props.BicycleMachineSteps
import Verif.Props.BicycleMachineAccurate
import Verif.Props.BicycleMachineDrift
import Verif.Props.BicycleMachineInverse
import Verif.Props.BicycleMachine
import Verif.Props.Motion
import Verif.Props.MotionMetrics
import Verif.Props.MotionObserve
import Verif.Props.MotionAgents
import Verif.Props.MotionPlanning
import Verif.Props.Causal
import Verif.Props.MapPadding
import Verif.Props.Influence
import Verif.Props.Absent
import Verif.Props.MetricsMachine
import Verif.Props.RewardMachine
import Verif.Props.FrameMachine
import Verif.Props.FrameMachineKernels
import Verif.Props.Keys
import Verif.Props.Ieee
import Verif.Props.Overflow
import Verif.Props.PlanExpert
import Verif.Props.PlanExpertPlain
import Verif.Props.PlanExpertCases
import Verif.Props.IdmRoute
import Verif.Props.Drivable
import Verif.Model.IeeeBicycle
import Verif.Spec.BrokenAction
import Verif.Props.BrokenAction
import Verif.Model.MachineOffroad
import Verif.Spec.OffroadMachine
import Verif.Props.OffroadMachine
import Verif.Model.IeeeOffroad
import Verif.Spec.OffroadIeee
import Verif.Props.OffroadIeee
import Verif.Model.MachineProgression
import Verif.Model.IeeeProgression
import Verif.Spec.ProgressionMachine
import Verif.Spec.ProgressionIeee
import Verif.Props.ProgressionMachine
import Verif.Props.ProgressionIeee
import Verif.Spec.Mirror
import Verif.Spec.MirrorPlanning
import Verif.Props.Mirror
import Verif.Props.MirrorMetrics
import Verif.Props.MirrorAgents
import Verif.Props.MirrorObserve
import Verif.Props.MirrorPlanning
import Verif.Model.ObservationSpec
import Verif.Spec.ObservationSpec
import Verif.Props.ObservationSpec
import Verif.Props.ObservationSpecPlanning
import Verif.Spec.Resume
import Verif.Props.Resume
import Verif.Spec.Size
import Verif.Props.Size
import Verif.Model.Masked
import Verif.Spec.Masked
import Verif.Props.Masked
import Verif.Spec.Window
import Verif.Props.Window
import Verif.Model.IeeeIdm
import Verif.Spec.BrokenSpeed
import Verif.Props.BrokenSpeed
import Verif.Spec.IdmMachine
import Verif.Props.IdmMachine
import Verif.Spec.SoFar
import Verif.Props.SoFar
import Verif.Spec.Interfaces
import Verif.Props.Interfaces
import Verif.Spec.DmStream
import Verif.Props.DmStream
import Verif.Spec.Labels
import Verif.Props.Labels
import Verif.Spec.Passive
import Verif.Props.Passive
import Verif.Spec.Traffic
import Verif.Props.Traffic
import Verif.Spec.Warmup
import Verif.Props.Warmup
import Verif.Spec.DiscreteReplay
import Verif.Props.DiscreteReplay
import Verif.Spec.OpenLoop
import Verif.Props.OpenLoop
import Verif.Spec.Foresight
import Verif.Props.Foresight
import Verif.Spec.Lane
import Verif.Props.Lane
import Verif.Spec.Convoy
import Verif.Props.Convoy
