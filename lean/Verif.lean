import Verif.Props.Text
import Verif.Props.Filter
import Verif.Props.Dispatcher
import Verif.Props.Reader
import Verif.Props.Dummy
import Verif.Props.Driver
import Verif.Props.Bridge
import Verif.Props.Layer
import Verif.Props.Dict
import Verif.Props.Storage
import Verif.Props.Eds
import Verif.Props.Objects
import Verif.Props.Sdo
import Verif.Props.SdoLog
import Verif.Props.Pdo
import Verif.Props.PdoInit
import Verif.Props.PdoDevice
import Verif.Props.Node
import Verif.Props.Master
import Verif.Props.Motor
import Verif.Props.MotorDiag
import Verif.Props.ChainDiag
import Verif.Props.Robot
import Verif.Props.Convert
import Verif.Props.Chain
import Verif.Props.CanLayer
import Verif.Props.Timer
import Verif.Props.ObjectText
import Verif.Props.Setup
import Verif.Props.NodeLayer
import Verif.Props.Homing
import Verif.Props.MotorHandlers
import Verif.Props.HandleCycle
import Verif.Props.Settings
import Verif.Props.MotorChain
import Verif.Props.SdoChannel
import Verif.Props.Registration
import Verif.Props.SyncNode
import Verif.Props.Threaded
import Verif.Props.BridgeNode
import Verif.Props.BridgeNet
import Verif.Props.BcmSocket
import Verif.Props.SyncTime
import Verif.Props.Locks
import Verif.Props.Candump
import Verif.Props.Axis
import Verif.Props.ChainBus
import Verif.Props.ChainLog
import Verif.Props.StorageBus
import Verif.Props.MotorStack
import Verif.Props.Nodes
import Verif.Props.Measure
import Verif.Props.BringUp
import Verif.Props.SetPoint
import Verif.Props.DummyLife
import Verif.Props.Supervision
import Verif.Props.DeviceInfo
import Verif.Props.Services
import Verif.Props.StartUp
import Verif.Props.BusError
import Verif.Props.Conversions
import Verif.Props.PdoAgree
import Verif.Props.ShutDown
import Verif.Props.PdoBus
