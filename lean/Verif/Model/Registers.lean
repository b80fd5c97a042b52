import Verif.Model.Core
/-! # Register map and register codecs — /repo/src/register.rs and `Mode` in /repo/src/lib.rs -/

namespace W5500

/-- /repo/src/register.rs:4 -/
def COMMON : U8 := 0

namespace common
/-- /repo/src/register.rs:8 -/
def MODE : U16 := 0x0
/-- /repo/src/register.rs:11 -/
def GATEWAY : U16 := 0x01
/-- /repo/src/register.rs:14 -/
def SUBNET_MASK : U16 := 0x05
/-- /repo/src/register.rs:17 -/
def MAC : U16 := 0x09
/-- /repo/src/register.rs:20 -/
def IP : U16 := 0x0F
/-- /repo/src/register.rs:23 (unused by the driver) -/
def INTERRUPT_TIMER : U16 := 0x13
/-- /repo/src/register.rs:26 -/
def SOCKET_INTERRUPT_MASK : U16 := 0x18
/-- /repo/src/register.rs:29 -/
def RETRY_TIME : U16 := 0x19
/-- /repo/src/register.rs:32 -/
def RETRY_COUNT : U16 := 0x1B
/-- /repo/src/register.rs:34 -/
def PHY_CONFIG : U16 := 0x2E
/-- /repo/src/register.rs:35 -/
def VERSION : U16 := 0x39
end common

/-- /repo/src/register.rs:198 -/
def SOCKET0 : U8 := 0b00000001
/-- /repo/src/register.rs:199 -/
def SOCKET0_BUFFER_TX : U8 := 0b00000010
/-- /repo/src/register.rs:200 -/
def SOCKET0_BUFFER_RX : U8 := 0b00000011
/-- /repo/src/register.rs:202 -/
def SOCKET1 : U8 := 0b00000101
/-- /repo/src/register.rs:203 -/
def SOCKET1_BUFFER_TX : U8 := 0b00000110
/-- /repo/src/register.rs:204 -/
def SOCKET1_BUFFER_RX : U8 := 0b00000111
/-- /repo/src/register.rs:206 -/
def SOCKET2 : U8 := 0b00001001
/-- /repo/src/register.rs:207 -/
def SOCKET2_BUFFER_TX : U8 := 0b00001010
/-- /repo/src/register.rs:208 -/
def SOCKET2_BUFFER_RX : U8 := 0b00001011
/-- /repo/src/register.rs:210 -/
def SOCKET3 : U8 := 0b00001101
/-- /repo/src/register.rs:211 -/
def SOCKET3_BUFFER_TX : U8 := 0b00001110
/-- /repo/src/register.rs:212 -/
def SOCKET3_BUFFER_RX : U8 := 0b00001111
/-- /repo/src/register.rs:214 -/
def SOCKET4 : U8 := 0b00010001
/-- /repo/src/register.rs:215 -/
def SOCKET4_BUFFER_TX : U8 := 0b00010010
/-- /repo/src/register.rs:216 -/
def SOCKET4_BUFFER_RX : U8 := 0b00010011
/-- /repo/src/register.rs:218 -/
def SOCKET5 : U8 := 0b00010101
/-- /repo/src/register.rs:219 -/
def SOCKET5_BUFFER_TX : U8 := 0b00010110
/-- /repo/src/register.rs:220 -/
def SOCKET5_BUFFER_RX : U8 := 0b00010111
/-- /repo/src/register.rs:222 -/
def SOCKET6 : U8 := 0b00011001
/-- /repo/src/register.rs:223 -/
def SOCKET6_BUFFER_TX : U8 := 0b00011010
/-- /repo/src/register.rs:224 -/
def SOCKET6_BUFFER_RX : U8 := 0b00011011
/-- /repo/src/register.rs:226 -/
def SOCKET7 : U8 := 0b00011101
/-- /repo/src/register.rs:227 -/
def SOCKET7_BUFFER_TX : U8 := 0b00011110
/-- /repo/src/register.rs:228 -/
def SOCKET7_BUFFER_RX : U8 := 0b00011111

namespace socketn
/-- /repo/src/register.rs:234 -/
def MODE : U16 := 0x00
/-- /repo/src/register.rs:248 -/
def COMMAND : U16 := 0x01
/-- /repo/src/register.rs:277 -/
def INTERRUPT : U16 := 0x02
/-- /repo/src/register.rs:310 -/
def STATUS : U16 := 0x03
/-- /repo/src/register.rs:366 -/
def SOURCE_PORT : U16 := 0x04
/-- /repo/src/register.rs:368 -/
def DESTINATION_IP : U16 := 0x0C
/-- /repo/src/register.rs:370 -/
def DESTINATION_PORT : U16 := 0x10
/-- /repo/src/register.rs:372 -/
def RXBUF_SIZE : U16 := 0x1E
/-- /repo/src/register.rs:386 -/
def TXBUF_SIZE : U16 := 0x1F
/-- /repo/src/register.rs:397 -/
def TX_FREE_SIZE : U16 := 0x20
/-- /repo/src/register.rs:404 -/
def TX_DATA_READ_POINTER : U16 := 0x22
/-- /repo/src/register.rs:429 -/
def TX_DATA_WRITE_POINTER : U16 := 0x24
/-- /repo/src/register.rs:434 -/
def RECEIVED_SIZE : U16 := 0x26
/-- /repo/src/register.rs:436 -/
def RX_DATA_READ_POINTER : U16 := 0x28
/-- /repo/src/register.rs:442 -/
def INTERRUPT_MASK : U16 := 0x2C

/-- `Protocol` — /repo/src/register.rs:238-243 -/
inductive Protocol where
  | closed | tcp | udp | macRaw
deriving DecidableEq, Repr

/-- `protocol as u8` — discriminants at /repo/src/register.rs:239-242 -/
def Protocol.toU8 : Protocol → U8
  | .closed => 0b00
  | .tcp => 0b01
  | .udp => 0b10
  | .macRaw => 0b100

/-- `Command` — /repo/src/register.rs:254-275 -/
inductive Command where
  | open | listen | connect | discon | close | send | receive
deriving DecidableEq, Repr

/-- `command as u8` — discriminants at /repo/src/register.rs:255-274 -/
def Command.toU8 : Command → U8
  | .open => 0x01
  | .listen => 0x02
  | .connect => 0x04
  | .discon => 0x08
  | .close => 0x10
  | .send => 0x20
  | .receive => 0x40

/-- `Interrupt` — /repo/src/register.rs:289-308 -/
inductive Interrupt where
  | all | sendOk | timeout | receive | disconnect | connect
deriving DecidableEq, Repr

/-- `interrupt as u8` — discriminants at /repo/src/register.rs:290-307 -/
def Interrupt.toU8 : Interrupt → U8
  | .all => 0b11111111
  | .sendOk => 0b10000
  | .timeout => 0b1000
  | .receive => 0b100
  | .disconnect => 0b10
  | .connect => 0b1

/-- `Status` — /repo/src/register.rs:329-351 -/
inductive Status where
  | closed | init | listen | established | closeWait | udp | macRaw
  | synSent | synRecv | finWait | closing | timeWait | lastAck
deriving DecidableEq, Repr

/-- `status as u8` — discriminants at /repo/src/register.rs:330-350 -/
def Status.toU8 : Status → U8
  | .closed => 0x00
  | .init => 0x13
  | .listen => 0x14
  | .established => 0x17
  | .closeWait => 0x1c
  | .udp => 0x22
  | .macRaw => 0x42
  | .synSent => 0x15
  | .synRecv => 0x16
  | .finWait => 0x18
  | .closing => 0x1a
  | .timeWait => 0x1b
  | .lastAck => 0x1d

/-- `Status::try_from(u8)` as generated by `#[derive(TryFromPrimitive)]`
(/repo/src/register.rs:327): compare with every discriminant in order; `none` is `Err`. -/
def Status.tryFrom (x : U8) : Option Status :=
  if x = Status.closed.toU8 then some .closed
  else if x = Status.init.toU8 then some .init
  else if x = Status.listen.toU8 then some .listen
  else if x = Status.established.toU8 then some .established
  else if x = Status.closeWait.toU8 then some .closeWait
  else if x = Status.udp.toU8 then some .udp
  else if x = Status.macRaw.toU8 then some .macRaw
  else if x = Status.synSent.toU8 then some .synSent
  else if x = Status.synRecv.toU8 then some .synRecv
  else if x = Status.finWait.toU8 then some .finWait
  else if x = Status.closing.toU8 then some .closing
  else if x = Status.timeWait.toU8 then some .timeWait
  else if x = Status.lastAck.toU8 then some .lastAck
  else none
end socketn

/-! ## `Mode` — /repo/src/lib.rs -/

/-- /repo/src/lib.rs:32-35 -/
inductive OnWakeOnLan where
  | invokeInterrupt | ignore
deriving DecidableEq, Repr
/-- discriminants at /repo/src/lib.rs:33-34 -/
def OnWakeOnLan.toU8 : OnWakeOnLan → U8
  | .invokeInterrupt => 0b00100000
  | .ignore => 0b00000000

/-- /repo/src/lib.rs:43-50 -/
inductive OnPingRequest where
  | respond | ignore
deriving DecidableEq, Repr
/-- discriminants at /repo/src/lib.rs:45-49 -/
def OnPingRequest.toU8 : OnPingRequest → U8
  | .respond => 0b00000000
  | .ignore => 0b00010000

/-- /repo/src/lib.rs:57-60 -/
inductive ConnectionType where
  | ppoe | ethernet
deriving DecidableEq, Repr
/-- discriminants at /repo/src/lib.rs:58-59 -/
def ConnectionType.toU8 : ConnectionType → U8
  | .ppoe => 0b00001000
  | .ethernet => 0b00000000

/-- /repo/src/lib.rs:67-75 -/
inductive ArpResponses where
  | cache | dropAfterUse
deriving DecidableEq, Repr
/-- discriminants at /repo/src/lib.rs:69-74 -/
def ArpResponses.toU8 : ArpResponses → U8
  | .cache => 0b00000000
  | .dropAfterUse => 0b00000010

/-- /repo/src/lib.rs:79-84 -/
structure Mode where
  onWakeOnLan : OnWakeOnLan
  onPingRequest : OnPingRequest
  connectionType : ConnectionType
  arpResponses : ArpResponses
deriving DecidableEq, Repr

namespace Mode
/-- `Mode::to_u8` — /repo/src/lib.rs:91-99 -/
def toU8 (m : Mode) : U8 :=
  let register : U8 := 0
  let register := register ||| m.onWakeOnLan.toU8
  let register := register ||| m.onPingRequest.toU8
  let register := register ||| m.connectionType.toU8
  let register := register ||| m.arpResponses.toU8
  register
/-- `Mode::to_register` — /repo/src/lib.rs:87-89 -/
def toRegister (m : Mode) : List U8 := [m.toU8]
/-- `Mode::default` — /repo/src/lib.rs:102-111 -/
def default : Mode := ⟨.ignore, .respond, .ethernet, .dropAfterUse⟩
end Mode

/-! ## `RetryTime` — /repo/src/register.rs:55-88 -/

/-- /repo/src/register.rs:55 -/
structure RetryTime where
  val : U16
deriving DecidableEq, Repr

namespace RetryTime
/-- `to_u16` — /repo/src/register.rs:59-61 -/
def toU16 (t : RetryTime) : U16 := t.val
/-- `to_register` — /repo/src/register.rs:64-66 -/
def toRegister (t : RetryTime) : List U8 := toBeBytes t.val
/-- `from_register` — /repo/src/register.rs:69-71 (argument type `[u8; 2]`) -/
def fromRegister (hi lo : U8) : RetryTime := ⟨fromBeBytes hi lo⟩
/-- `from_millis` — /repo/src/register.rs:74-76. `milliseconds * 10` in `u16`: panics on overflow if
the build has overflow checks (`oc`), wraps otherwise. `none` is the panic. -/
def fromMillis (oc : Bool) (milliseconds : U16) : Option RetryTime :=
  if oc && decide (65536 ≤ milliseconds.toNat * 10) then none else some ⟨milliseconds * 10⟩
/-- `to_millis` — /repo/src/register.rs:79-81 -/
def toMillis (t : RetryTime) : U16 := t.val / 10
/-- `Default` — /repo/src/register.rs:84-88 -/
def default (oc : Bool) : Option RetryTime := fromMillis oc 200
end RetryTime

/-! ## `PhyConfig` — /repo/src/register.rs:90-195 -/

/-- /repo/src/register.rs:92-108 -/
inductive PhyOperationMode where
  | halfDuplex10bt | fullDuplex10bt | halfDuplex100bt | fullDuplex100bt
  | halfDuplex100btAuto | powerDown | auto
deriving DecidableEq, Repr

/-- `From<PhyOperationMode> for u8` — /repo/src/register.rs:110-114, discriminants at 94-107 -/
def PhyOperationMode.toU8 : PhyOperationMode → U8
  | .halfDuplex10bt => 0b000000
  | .fullDuplex10bt => 0b001000
  | .halfDuplex100bt => 0b010000
  | .fullDuplex100bt => 0b011000
  | .halfDuplex100btAuto => 0b100000
  | .powerDown => 0b110000
  | .auto => 0b111000

/-- /repo/src/register.rs:118-123 -/
inductive PhySpeedStatus where
  | mbps10 | mbps100
deriving DecidableEq, Repr

/-- /repo/src/register.rs:127-132 -/
inductive PhyDuplexStatus where
  | halfDuplex | fullDuplex
deriving DecidableEq, Repr

/-- /repo/src/register.rs:135: `PhyConfig([u8; 1])` -/
structure PhyConfig where
  val : U8
deriving DecidableEq, Repr

namespace PhyConfig
/-- /repo/src/register.rs:139 -/
def LNK_POS : Nat := 0
/-- /repo/src/register.rs:141 -/
def SPD_POS : Nat := 1
/-- /repo/src/register.rs:143 -/
def DPX_POS : Nat := 2
/-- `link_up` — /repo/src/register.rs:154-156; `BitArray::get_bit` on a one-byte array -/
def linkUp (p : PhyConfig) : Bool := p.val.getLsbD LNK_POS
/-- `speed` — /repo/src/register.rs:159-165 -/
def speed (p : PhyConfig) : PhySpeedStatus := if !p.val.getLsbD SPD_POS then .mbps10 else .mbps100
/-- `duplex` — /repo/src/register.rs:168-174 -/
def duplex (p : PhyConfig) : PhyDuplexStatus :=
  if !p.val.getLsbD DPX_POS then .halfDuplex else .fullDuplex
/-- `operation_mode` — /repo/src/register.rs:177-188; `none` is the `unreachable!()` panic -/
def operationMode (p : PhyConfig) : Option PhyOperationMode :=
  match (p.val &&& 0b111000).toNat with
  | 0b000000 => some .halfDuplex10bt
  | 0b001000 => some .fullDuplex10bt
  | 0b010000 => some .halfDuplex100bt
  | 0b011000 => some .fullDuplex100bt
  | 0b100000 => some .halfDuplex100btAuto
  | 0b110000 => some .powerDown
  | 0b111000 => some .auto
  | _ => none
/-- `From<u8>` — /repo/src/register.rs:191-195 -/
def ofU8 (v : U8) : PhyConfig := ⟨v⟩
end PhyConfig

end W5500
