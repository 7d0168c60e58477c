import Verif.Props.Blocks
import Verif.Props.Slave
import Verif.Props.SlaveMask
import Verif.Props.SlaveSafety
import Verif.Props.SlaveAtomic
import Verif.Props.Crc
import Verif.Props.Query
import Verif.Props.Databank
import Verif.Props.DatabankMap
import Verif.Props.Broadcast
import Verif.Props.Framing
import Verif.Props.Master
import Verif.Props.MasterRead
import Verif.Props.EndToEnd
import Verif.Props.TcpMaster
import Verif.Props.RtuOverTcp
import Verif.Props.TcpServer
import Verif.Props.Rtu
import Verif.Props.OpenClose
import Verif.Props.Locks
import Verif.Props.Hooks
import Verif.Props.HookEffects
import Verif.Props.Utils
import Verif.Props.Simulator
import Verif.Props.SimRpc
import Verif.Props.SimQueues
import Verif.Props.Worker
import Verif.Props.ServerThread
import Verif.Props.PyClient
import Verif.Props.RtuStop
import Verif.Props.FullStack
import Verif.Props.Composite
import Verif.Model.DbThreads
import Verif.Props.DbThreads
import Verif.Props.Formats
import Verif.Props.Resources
import Verif.Props.RtuRecovery
import Verif.Props.SimRpcAll
import Verif.Props.Malformed
import Verif.Props.CustomMemory
import Verif.Props.RtuBus
import Verif.Props.SetItemHook
import Verif.Model.Clocked
import Verif.Props.Timeouts
import Verif.Model.ClockedServer
import Verif.Props.ServerTime
import Verif.Props.ServerRefines
import Verif.Model.ClockedRtu
import Verif.Props.RtuTime
import Verif.Props.RtuServerTime
import Verif.Props.RtuExchange
import Verif.Props.RtuRefines
import Verif.Props.MasterRefines
import Verif.Props.AnyLayout
import Verif.Props.ShortSend
import Verif.Props.LateResponse
import Verif.Props.TcpExchange
import Verif.Model.Handlers
import Verif.Lemmas.Handlers
import Verif.Props.ObjectCells
import Verif.Model.ActingHooks
import Verif.Props.ActingHooks
import Verif.Model.Format
import Verif.Props.FormatText
import Verif.Props.FormatCalls
import Verif.Props.FormatNotation
import Verif.Props.FormatWidth
import Verif.Props.Retry
import Verif.Model.SimLife
import Verif.Props.SimLife
import Verif.Model.Verbose
import Verif.Props.Verbose
import Verif.Model.MasterHooks
import Verif.Props.MasterHooks
import Verif.Model.WebHmi
import Verif.Props.WebHmi
import Verif.Model.Examples
import Verif.Props.Examples
import Verif.Model.SlaveExample
import Verif.Props.SlaveExample
import Verif.Model.ActingServer
import Verif.Props.ActingServer
import Verif.Model.Logged
import Verif.Props.Logged
import Verif.Model.LoggedServer
import Verif.Props.LoggedServer
import Verif.Model.LoggedRtu
import Verif.Props.LoggedRtu
import Verif.Model.LogHandlers
import Verif.Props.LogHandlers
import Verif.Props.AtomicHistory
import Verif.Props.AnyLayoutCalls
import Verif.Props.SignedSlave
import Verif.Model.SharedLine
import Verif.Props.SharedLine
import Verif.Model.CloseRace
import Verif.Props.CloseRace
import Verif.Model.Interrupts
import Verif.Props.Interrupts
import Verif.Model.LoggedTcp
import Verif.Props.LoggedTcp
import Verif.Model.Gateway
import Verif.Props.Gateway
import Verif.Model.LoggedWorker
import Verif.Props.LoggedWorker
import Verif.Model.MasterExample
import Verif.Props.MasterExample
import Verif.Model.CutCalls
import Verif.Props.CutCalls
import Verif.Model.ServerInterrupts
import Verif.Props.ServerInterrupts
import Verif.Props.ActingHooksMore
import Verif.Model.WorkerInterrupts
import Verif.Props.WorkerInterrupts
