import Verif.Props.TaskManager
import Verif.Props.TaskLoop
import Verif.Props.DataCollection
import Verif.Props.Communicator
import Verif.Props.Shuffler
import Verif.Props.IndexHash
import Verif.Props.HashDistr
import Verif.Props.AdjacencyList
import Verif.Props.Partition
import Verif.Props.GlobalIndices
import Verif.Props.NetworkClean
import Verif.Props.GhostUpdate
import Verif.Props.ExchangeBuffers
import Verif.Props.NetworkLookup
import Verif.Props.BusVectorMap
import Verif.Props.FullMatrixMap
import Verif.Props.GenMap
import Verif.Props.SerialIO
import Verif.Props.StringUtils
import Verif.Props.BlockParser
import Verif.Props.InputStream
import Verif.Props.StatBlock
import Verif.Props.Cblock
import Verif.Props.Dblock
import Verif.Props.Configuration
import Verif.Props.CoarseTimer
import Verif.Props.ValueTransfer
import Verif.Props.DAEEvent
import Verif.Props.NewtonRaphson
import Verif.Props.YMatrix
import Verif.Props.PowerFlow
import Verif.Props.AngleWrap
import Verif.Props.QLimit
import Verif.Props.FactoryChecks
import Verif.Props.Contingency
import Verif.Props.PFSolve
import Verif.Props.GlobalStore
import Verif.Props.GlobalVector
import Verif.Props.GaShuffler
import Verif.Props.Relay
import Verif.Props.RelayUpdate
import Verif.Props.DsEvents
import Verif.Props.Governors
import Verif.Props.GovernorRun
import Verif.Props.GovernorFaults
import Verif.Props.Exciters
import Verif.Props.Exdc1
import Verif.Props.ExciterSat
import Verif.Props.Esst1a
import Verif.Props.ExciterRun
import Verif.Props.StateEst
import Verif.Props.StateEstBranch
import Verif.Props.StateEstSolve
import Verif.Props.PFBusData
import Verif.Props.PFBusEdit
import Verif.Props.PathRating
import Verif.Props.FlatStart
import Verif.Props.Machines
import Verif.Props.MachineData
import Verif.Props.Rotation
import Verif.Props.DsLoad
import Verif.Props.Heun
import Verif.Props.RawBranch
import Verif.Props.RawGroup
import Verif.Props.RawRecords
import Verif.Props.Export
import Verif.Props.ExportTrip
import Verif.Props.DsOut
import Verif.Props.RawBus
import Verif.Props.DyrShared
import Verif.Props.DyrAlone
import Verif.Props.DaeJacobian
import Verif.Props.DaeInit
import Verif.Props.DaeSwing
import Verif.Props.DaeEvents
import Verif.Props.DaePlaces
import Verif.Props.DaeUnits
import Verif.Props.NetworkAnalytics
import Verif.Props.BusTable
import Verif.Props.DyrRecords
import Verif.Props.UnitCommit
import Verif.Props.DeviceLoad
import Verif.Props.CaDriver
import Verif.Props.SeqParser
import Verif.Props.Raw23
import Verif.Props.Actions
import Verif.Props.ActionLoads
import Verif.Props.Zones
import Verif.Props.DsScaling
import Verif.Props.FreqMonitor
import Verif.Props.Random
import Verif.Props.RtprCases
import Verif.Props.FaultSim
import Verif.Props.LinSolve
import Verif.Props.ComplexOps
import Verif.Props.NetworkClone
import Verif.Props.PetscOptions
import Verif.Props.Observations
import Verif.Props.GenTransfer
import Verif.Props.KalmanFilter
import Verif.Props.KalmanMachine
import Verif.Props.ParmetisWrapper
import Verif.Props.WatchSeries
import Verif.Props.ParamEdit
import Verif.Props.MatPower
import Verif.Props.Composite
import Verif.Props.Expand
import Verif.Props.MotorW
import Verif.Props.AcMotor
import Verif.Props.Wind
import Verif.Props.GridForming
import Verif.Props.PlantControl
import Verif.Props.ElecControl
