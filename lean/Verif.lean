import Verif.Base
import Verif.Model.CircularBuffer
import Verif.Lemmas.Ring
import Verif.Spec.Fifo
import Verif.Props.Ring
import Verif.Model.LineCircularBuffer
import Verif.Model.BufferedSerial
import Verif.Spec.Line
import Verif.Lemmas.Line
import Verif.Props.Line
import Verif.Lemmas.Serial
import Verif.Props.Serial
import Verif.Model.Task
import Verif.Model.Scheduler
import Verif.Model.Countdown
import Verif.Props.Countdown
import Verif.Props.Sched
import Verif.Model.Reenter
import Verif.Spec.Coroutine
import Verif.Lemmas.Reenter
import Verif.Props.Reenter
import Verif.Model.Blocking
import Verif.Props.Blocking
import Verif.Model.CString
import Verif.Model.Dev
import Verif.Model.SimComm
import Verif.Model.Sim7x00
import Verif.Model.Sim800
import Verif.Model.Espressif
import Verif.Model.CC1352P7
import Verif.Model.Ops
import Verif.Lemmas.DevFrame
import Verif.Props.DriverApi
import Verif.Lemmas.CString
import Verif.Props.Parse
import Verif.Lemmas.SerCount
import Verif.Lemmas.DevIo
import Verif.Lemmas.Eff
import Verif.Lemmas.DrvFrame
import Verif.Lemmas.EffSim
import Verif.Lemmas.EffWifi
import Verif.Lemmas.Busy
import Verif.Lemmas.History
import Verif.Lemmas.StepInv
import Verif.Props.LineAsm
import Verif.Spec.Trace
import Verif.Spec.Sessions
import Verif.Lemmas.Later
import Verif.Lemmas.Stages
import Verif.Lemmas.Events
import Verif.Lemmas.Link
import Verif.Lemmas.LinkSim7x00
import Verif.Lemmas.LinkSim800
import Verif.Lemmas.LinkEspressif
import Verif.Lemmas.LinkCC1352P7
import Verif.Props.Link
import Verif.Lemmas.Since
import Verif.Lemmas.RestSim7x00
import Verif.Lemmas.RestSim800
import Verif.Lemmas.RestEspressif
import Verif.Lemmas.RestCC1352P7
import Verif.Props.Rest
import Verif.Spec.Payload
import Verif.Lemmas.Turn
import Verif.Lemmas.TurnSim7x00
import Verif.Lemmas.TurnSim800
import Verif.Lemmas.TurnEspressif
import Verif.Lemmas.TurnCC1352P7
import Verif.Lemmas.Payload
import Verif.Lemmas.PaySim7x00
import Verif.Lemmas.PaySim800
import Verif.Lemmas.PayEspressif
import Verif.Lemmas.PayCC1352P7
import Verif.Lemmas.TxForm
import Verif.Lemmas.Decimal
import Verif.Props.Payload
import Verif.Lemmas.CutLine
import Verif.Lemmas.OneTx
import Verif.Lemmas.WaitCC1352P7
import Verif.Lemmas.WaitEspressif
import Verif.Lemmas.WaitSim7x00
import Verif.Lemmas.WaitSim800
import Verif.Lemmas.Waiting
import Verif.Props.OneCmd
import Verif.Spec.Waiting
import Verif.Spec.Receiving
import Verif.Lemmas.Limit
import Verif.Lemmas.Receiving
import Verif.Lemmas.RecvCC1352P7
import Verif.Lemmas.RecvEspressif
import Verif.Lemmas.RecvSim7x00
import Verif.Lemmas.RecvSim800
import Verif.Lemmas.Request
import Verif.Props.Receive
import Verif.Props.Stale
import Verif.Spec.Wedge
import Verif.Lemmas.Broken
import Verif.Lemmas.MacQuery
import Verif.Lemmas.Wedge
import Verif.Props.MacQuery
import Verif.Props.Wedge
import Verif.Lemmas.Language
import Verif.Lemmas.Moves
import Verif.Lemmas.Order
import Verif.Lemmas.Says
import Verif.Props.Order
import Verif.Spec.Language
import Verif.Spec.Order
import Verif.Lemmas.Stm32
import Verif.Model.ModemDetect
import Verif.Model.PortConfig
import Verif.Model.Stm32Uart
import Verif.Props.ModemDetect
import Verif.Props.PortConfig
import Verif.Props.Uart
import Verif.Lemmas.Whole
import Verif.Props.Whole
import Verif.Spec.Whole
import Verif.Lemmas.Chat
import Verif.Lemmas.Chat7x00
import Verif.Lemmas.Chat800
import Verif.Lemmas.ChatDns
import Verif.Spec.Chat
import Verif.Lemmas.ChatCC
import Verif.Lemmas.ChatEsp
import Verif.Lemmas.Trips
import Verif.Props.Handshake
import Verif.Lemmas.Iccid
import Verif.Lemmas.Phases
import Verif.Props.Iccid
import Verif.Lemmas.Quit
import Verif.Props.Quit
import Verif.Spec.Quit
import Verif.Lemmas.Net
import Verif.Lemmas.Net7x00
import Verif.Lemmas.Proto
import Verif.Props.Traffic
import Verif.Spec.Modem
import Verif.Lemmas.Net800
import Verif.Lemmas.NetCC
import Verif.Lemmas.NetEsp
import Verif.Lemmas.PayFits
import Verif.Lemmas.Wire
import Verif.Props.Wire
import Verif.Spec.Wire
import Verif.Lemmas.Dry
import Verif.Props.Closing
import Verif.Spec.Closing
import Verif.Lemmas.Recover7x00
import Verif.Lemmas.Recover800
import Verif.Lemmas.RecoverCC
import Verif.Lemmas.RecoverEsp
import Verif.Lemmas.RecoverSeen
import Verif.Lemmas.Recovery
import Verif.Props.Recovery
import Verif.Spec.Recovery
import Verif.Lemmas.Abort
import Verif.Props.Abort
import Verif.Spec.Abort
import Verif.Lemmas.Asking
import Verif.Lemmas.Asking7x00
import Verif.Lemmas.Asking800
import Verif.Lemmas.AskingCC
import Verif.Lemmas.AskingEsp
import Verif.Lemmas.AskingSim
import Verif.Lemmas.Tours
import Verif.Props.Asking
import Verif.Spec.Asking
import Verif.Spec.Parse
import Verif.Lemmas.Answer
import Verif.Lemmas.AnswerDev
import Verif.Lemmas.AnswerIccid
import Verif.Props.Answer
import Verif.Spec.Answer
import Verif.Lemmas.Detect
import Verif.Lemmas.Detected
import Verif.Props.Detect
import Verif.Spec.Detect
import Verif.Lemmas.Block
import Verif.Lemmas.Blocks
import Verif.Props.Block
import Verif.Spec.Block
import Verif.Lemmas.Early
import Verif.Lemmas.EarlyInv
import Verif.Lemmas.EarlySim
import Verif.Lemmas.EarlyWifi
import Verif.Props.Early
import Verif.Props.Fits
import Verif.Spec.Early
import Verif.Lemmas.Cable
import Verif.Lemmas.Cable7x00
import Verif.Lemmas.Cable800
import Verif.Lemmas.CableCC
import Verif.Lemmas.CableDev
import Verif.Lemmas.CableEsp
import Verif.Lemmas.Path
import Verif.Props.Cable
import Verif.Spec.Cable
import Verif.Lemmas.Datagram
import Verif.Lemmas.Large
import Verif.Lemmas.Rescue
import Verif.Lemmas.Roomy
import Verif.Props.Large
import Verif.Lemmas.Polled
import Verif.Lemmas.PolledBase
import Verif.Lemmas.PolledCC1352P7
import Verif.Lemmas.PolledEspressif
import Verif.Lemmas.PolledSim7x00
import Verif.Lemmas.PolledSim800
import Verif.Lemmas.Served
import Verif.Props.Served
import Verif.Spec.Served
import Verif.Lemmas.PaceCC1352P7
import Verif.Lemmas.PaceEspressif
import Verif.Lemmas.PaceSched
import Verif.Lemmas.PaceSim7x00
import Verif.Lemmas.PaceSim800
import Verif.Props.Pace
import Verif.Spec.Pace
import Verif.Lemmas.Budget
import Verif.Lemmas.BudgetCC1352P7
import Verif.Lemmas.BudgetEspressif
import Verif.Lemmas.BudgetSim7x00
import Verif.Lemmas.BudgetSim800
import Verif.Lemmas.Ended
import Verif.Lemmas.EndedSim7x00
import Verif.Props.Budget
import Verif.Spec.Budget
import Verif.Spec.Ended
import Verif.Lemmas.EndedCC1352P7
import Verif.Lemmas.EndedEspressif
import Verif.Lemmas.EndedSim800
import Verif.Lemmas.EndedSince
import Verif.Props.Ended
import Verif.Lemmas.Clock
import Verif.Model.Tick
import Verif.Props.Clock
import Verif.Spec.Clock
import Verif.Lemmas.Datagrams
import Verif.Lemmas.Hollow
import Verif.Props.Datagrams
import Verif.Spec.Datagrams
import Verif.Props.Hollow
import Verif.Props.Locked
import Verif.Lemmas.Duff
import Verif.Model.Duff
import Verif.Props.Thread
import Verif.Spec.Thread
import Verif.Lemmas.Linux
import Verif.Props.Linux
import Verif.Spec.Linux
import Verif.Lemmas.Client
import Verif.Lemmas.ClientDrv
import Verif.Lemmas.Lasting
import Verif.Lemmas.Plays
import Verif.Lemmas.Rely
import Verif.Model.Client
import Verif.Props.Client
import Verif.Spec.Client
import Verif.Spec.ClientSessions
import Verif.Lemmas.Detector
import Verif.Lemmas.Program
import Verif.Lemmas.ProgramPlays
import Verif.Lemmas.Returns
import Verif.Model.Program
import Verif.Props.Program
import Verif.Spec.Program
import Verif.Spec.ProgramSession
import Verif.Lemmas.Ntp
import Verif.Model.Ntp
import Verif.Props.Ntp
import Verif.Spec.Ntp
import Verif.Spec.NtpSession
import Verif.Lemmas.Mbed
import Verif.Model.Mbed
import Verif.Props.Mbed
import Verif.Lemmas.EventLoop
import Verif.Model.EventLoop
import Verif.Props.EventLoop
import Verif.Spec.EventLoop
import Verif.Spec.EventSession
import Verif.Lemmas.BlockingDriver
import Verif.Lemmas.BlockingProgram
import Verif.Model.BlockingProgram
import Verif.Props.BlockingProgram
import Verif.Spec.BlockingProgram
import Verif.Spec.BlockingSession
import Verif.Lemmas.SerialPlays
import Verif.Lemmas.SerialTask
import Verif.Model.SerialTask
import Verif.Props.SerialTask
import Verif.Spec.SerialTask
import Verif.Lemmas.Counted
import Verif.Model.Counted
import Verif.Props.Counted
import Verif.Spec.Counted
import Verif.Lemmas.TwoTasks
import Verif.Model.TwoTasks
import Verif.Props.TwoTasks
import Verif.Spec.TwoTasks
import Verif.Lemmas.BlockingPace
import Verif.Lemmas.Sequence
import Verif.Model.Sequence
import Verif.Props.Sequence
import Verif.Spec.Sequence
import Verif.Lemmas.NtpClient
import Verif.Model.NtpClient
import Verif.Props.NtpClient
import Verif.Spec.NtpClient
import Verif.Lemmas.UnixSerial
import Verif.Model.UnixSerial
import Verif.Props.UnixSerial
import Verif.Lemmas.Printf
import Verif.Model.Printf
import Verif.Props.Printf
import Verif.Spec.Printf
import Verif.Lemmas.MqttHello
import Verif.Model.MqttHello
import Verif.Props.MqttHello
import Verif.Spec.MqttHello
import Verif.Props.PeerGone
import Verif.Lemmas.Confirmed
import Verif.Lemmas.Confirmed800
import Verif.Lemmas.ConfirmedCC
import Verif.Lemmas.ConfirmedEsp
import Verif.Props.Confirmed
import Verif.Spec.Confirmed
