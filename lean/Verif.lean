import Verif.Model.Core
import Verif.Model.Cursor
import Verif.Model.Device
import Verif.Model.Net
import Verif.Model.Raw
import Verif.Model.Registers
import Verif.Model.Socket
import Verif.Model.Tcp
import Verif.Model.Udp
import Verif.Model.Wire
import Verif.Spec.Access
import Verif.Spec.Accessors
import Verif.Spec.Ack
import Verif.Spec.Ample
import Verif.Spec.Blame
import Verif.Spec.Block
import Verif.Spec.Bridge
import Verif.Spec.Chip
import Verif.Spec.Client
import Verif.Spec.Collect
import Verif.Spec.Config
import Verif.Spec.Cost
import Verif.Spec.Cursor
import Verif.Spec.Datasheet
import Verif.Spec.Dead
import Verif.Spec.Disclosure
import Verif.Spec.Either
import Verif.Spec.EndToEnd
import Verif.Spec.Exchange
import Verif.Spec.Failures
import Verif.Spec.Farewell
import Verif.Spec.Feed
import Verif.Spec.Fitting
import Verif.Spec.Flow
import Verif.Spec.Forge
import Verif.Spec.Independent
import Verif.Spec.Insist
import Verif.Spec.Irq
import Verif.Spec.Load
import Verif.Spec.Lost
import Verif.Spec.Outcome
import Verif.Spec.Pace
import Verif.Spec.Packets
import Verif.Spec.Panics
import Verif.Spec.Pause
import Verif.Spec.Persist
import Verif.Spec.PktFailures
import Verif.Spec.Poll
import Verif.Spec.Prompt
import Verif.Spec.RawHistory
import Verif.Spec.Reach
import Verif.Spec.ReadAll
import Verif.Spec.ReadToEnd
import Verif.Spec.Recover
import Verif.Spec.Refusals
import Verif.Spec.Relate
import Verif.Spec.Reply
import Verif.Spec.Request
import Verif.Spec.Reset
import Verif.Spec.Residue
import Verif.Spec.Respond
import Verif.Spec.Returns
import Verif.Spec.Rough
import Verif.Spec.Script
import Verif.Spec.Sendok
import Verif.Spec.Serve
import Verif.Spec.Settings
import Verif.Spec.Several
import Verif.Spec.Slow
import Verif.Spec.Spi
import Verif.Spec.Strategy
import Verif.Spec.Success
import Verif.Spec.Swift
import Verif.Spec.System
import Verif.Spec.Tally
import Verif.Spec.TcpHistory
import Verif.Spec.Told
import Verif.Spec.Trace
import Verif.Spec.UdpHistory
import Verif.Spec.Until
import Verif.Spec.Veil
import Verif.Spec.Wakeup
import Verif.Spec.Wary
import Verif.Spec.Watch
import Verif.Spec.WriteAll
import Verif.Proofs.Access
import Verif.Proofs.AccessDev
import Verif.Proofs.Ack
import Verif.Proofs.Ample
import Verif.Proofs.Blame
import Verif.Proofs.Block
import Verif.Proofs.Bridge
import Verif.Proofs.Bytes
import Verif.Proofs.Chip
import Verif.Proofs.ChipDgram
import Verif.Proofs.ChipMoves
import Verif.Proofs.ChipOpen
import Verif.Proofs.ChipPkt
import Verif.Proofs.ChipRaw
import Verif.Proofs.ChipReturns
import Verif.Proofs.ChipSock
import Verif.Proofs.ChipTcp
import Verif.Proofs.ChipTx
import Verif.Proofs.ChipUdp
import Verif.Proofs.ChipUdpRx
import Verif.Proofs.Client
import Verif.Proofs.Cost
import Verif.Proofs.Delay
import Verif.Proofs.Disclosure
import Verif.Proofs.Early
import Verif.Proofs.ErrIn
import Verif.Proofs.Exchange
import Verif.Proofs.FailStop
import Verif.Proofs.Failures
import Verif.Proofs.Farewell
import Verif.Proofs.Faultless
import Verif.Proofs.Feed
import Verif.Proofs.Fill
import Verif.Proofs.Fitting
import Verif.Proofs.Flow
import Verif.Proofs.Forge
import Verif.Proofs.History
import Verif.Proofs.Hoare
import Verif.Proofs.Independent
import Verif.Proofs.Init
import Verif.Proofs.Irq
import Verif.Proofs.Load
import Verif.Proofs.Loops
import Verif.Proofs.Monad
import Verif.Proofs.Moves
import Verif.Proofs.NoPanic
import Verif.Proofs.Ordered
import Verif.Proofs.Outcome
import Verif.Proofs.OutcomeRun
import Verif.Proofs.OutcomeUdp
import Verif.Proofs.OwnErr
import Verif.Proofs.Pace
import Verif.Proofs.Pause
import Verif.Proofs.Picky
import Verif.Proofs.PickyCalls
import Verif.Proofs.PktFailures
import Verif.Proofs.Poll
import Verif.Proofs.RawHistory
import Verif.Proofs.RawSplit
import Verif.Proofs.ReadAll
import Verif.Proofs.Recover
import Verif.Proofs.RecvReturns
import Verif.Proofs.Refusals
import Verif.Proofs.Regs
import Verif.Proofs.Relate
import Verif.Proofs.RelateClient
import Verif.Proofs.Reply
import Verif.Proofs.Request
import Verif.Proofs.Reset
import Verif.Proofs.Residue
import Verif.Proofs.Respond
import Verif.Proofs.Returns
import Verif.Proofs.Ring
import Verif.Proofs.Rough
import Verif.Proofs.Runs
import Verif.Proofs.Samples
import Verif.Proofs.Script
import Verif.Proofs.SendReturns
import Verif.Proofs.Sendok
import Verif.Proofs.Serve
import Verif.Proofs.Settings
import Verif.Proofs.SettingsRun
import Verif.Proofs.Several
import Verif.Proofs.Slow
import Verif.Proofs.Spi
import Verif.Proofs.Still
import Verif.Proofs.Strategy
import Verif.Proofs.StrategyClient
import Verif.Proofs.StrategyDev
import Verif.Proofs.Success
import Verif.Proofs.SuccessMore
import Verif.Proofs.SuccessOpen
import Verif.Proofs.SuccessRun
import Verif.Proofs.Swift
import Verif.Proofs.System
import Verif.Proofs.Tally
import Verif.Proofs.TcpHistory
import Verif.Proofs.Told
import Verif.Proofs.Trace
import Verif.Proofs.UdpHistory
import Verif.Proofs.Until
import Verif.Proofs.Veil
import Verif.Proofs.Wakeup
import Verif.Proofs.Wary
import Verif.Proofs.Watch
import Verif.Proofs.WriteAll
import Verif.Props.Accessors
import Verif.Props.Ack
import Verif.Props.Alloc
import Verif.Props.Blame
import Verif.Props.Block
import Verif.Props.Bridge
import Verif.Props.Bus
import Verif.Props.Cases1
import Verif.Props.Cases2
import Verif.Props.Cases3
import Verif.Props.Cases4
import Verif.Props.Cases5
import Verif.Props.Cases6
import Verif.Props.Cases7
import Verif.Props.Cases8
import Verif.Props.Codecs
import Verif.Props.Collect
import Verif.Props.Cost
import Verif.Props.Cursor
import Verif.Props.Dead
import Verif.Props.Delay
import Verif.Props.Disclosure
import Verif.Props.Either
import Verif.Props.Empty
import Verif.Props.EndToEnd
import Verif.Props.Exchange
import Verif.Props.Failures
import Verif.Props.Farewell
import Verif.Props.Fitting
import Verif.Props.Flow
import Verif.Props.Forge
import Verif.Props.Handed
import Verif.Props.Init
import Verif.Props.Insist
import Verif.Props.Irq
import Verif.Props.Keep
import Verif.Props.Lifecycle
import Verif.Props.LocalPort
import Verif.Props.Lost
import Verif.Props.Map
import Verif.Props.Orderly
import Verif.Props.Outcome
import Verif.Props.Pace
import Verif.Props.Panics
import Verif.Props.Pause
import Verif.Props.Persist
import Verif.Props.PersistOpen
import Verif.Props.Pieces
import Verif.Props.PktFailures
import Verif.Props.Poll
import Verif.Props.Prompt
import Verif.Props.Raw
import Verif.Props.ReadAll
import Verif.Props.ReadToEnd
import Verif.Props.Recover
import Verif.Props.Refusals
import Verif.Props.Registers
import Verif.Props.Relate
import Verif.Props.Reply
import Verif.Props.Request
import Verif.Props.Reset
import Verif.Props.Residue
import Verif.Props.Respond
import Verif.Props.Retry
import Verif.Props.Returns
import Verif.Props.Rough
import Verif.Props.Sendok
import Verif.Props.Serve
import Verif.Props.Settings
import Verif.Props.Several
import Verif.Props.Sizes
import Verif.Props.Slow
import Verif.Props.Stranger
import Verif.Props.Success
import Verif.Props.Swift
import Verif.Props.System
import Verif.Props.Tally
import Verif.Props.Tcp
import Verif.Props.TcpConnect
import Verif.Props.ThreeWireInit
import Verif.Props.Through
import Verif.Props.Told
import Verif.Props.Udp
import Verif.Props.UdpChip
import Verif.Props.UdpOpen
import Verif.Props.UdpPorts
import Verif.Props.Until
import Verif.Props.Wakeup
import Verif.Props.Wary
import Verif.Props.Watch
import Verif.Props.Window
import Verif.Props.Wire
import Verif.Props.WriteAll
