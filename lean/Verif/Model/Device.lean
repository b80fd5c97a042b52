import Verif.Model.Raw
/-! # Device, device state, hosts and initialisation

/repo/src/device.rs, /repo/src/host/{mod,manual,dhcp}.rs, /repo/src/uninitialized_device.rs -/

namespace W5500

/-! ## Hosts -/

/-- `HostConfig` — /repo/src/host/mod.rs:14-22 -/
structure HostConfig where
  mac : Mac
  ip : Ipv4
  gateway : Ipv4
  subnet : Ipv4
deriving DecidableEq, Repr

/-- `HostConfig::default` — /repo/src/host/mod.rs:24-33 -/
def HostConfig.default : HostConfig :=
  { mac := Mac.unspecified, ip := Ipv4.unspecified, gateway := Ipv4.unspecified,
    subnet := Ipv4.unspecified }

/-- The trait `Host` — /repo/src/host/mod.rs:35-37 -/
class Host (H : Type) where
  refresh : {W E : Type} → Bus W E → M (H × W) E Unit

variable {W E : Type}

/-- `Host::write_settings` — /repo/src/host/mod.rs:43-69. State: `current` and the bus. -/
def writeSettings (B : Bus W E) (settings : HostConfig) : M (HostConfig × W) E Unit := do
  if settings.gateway ≠ (← M.get).1.gateway then
    M.onSnd (B.write COMMON common.GATEWAY settings.gateway.octets)
    M.modify fun s => ({ s.1 with gateway := settings.gateway }, s.2)
  if settings.subnet ≠ (← M.get).1.subnet then
    M.onSnd (B.write COMMON common.SUBNET_MASK settings.subnet.octets)
    M.modify fun s => ({ s.1 with subnet := settings.subnet }, s.2)
  if settings.mac ≠ (← M.get).1.mac then
    M.onSnd (B.write COMMON common.MAC settings.mac.octets)
    M.modify fun s => ({ s.1 with mac := settings.mac }, s.2)
  if settings.ip ≠ (← M.get).1.ip then
    M.onSnd (B.write COMMON common.IP settings.ip.octets)
    M.modify fun s => ({ s.1 with ip := settings.ip }, s.2)

/-- `Manual` — /repo/src/host/manual.rs:9-13 -/
structure Manual where
  isSetup : Bool
  settings : HostConfig
  current : HostConfig
deriving DecidableEq, Repr

namespace Manual
/-- `Manual::new` — /repo/src/host/manual.rs:16-27 -/
def new (mac : Mac) (ip gateway subnet : Ipv4) : Manual :=
  { isSetup := false
    settings := { mac := mac, ip := ip, gateway := gateway, subnet := subnet }
    current := HostConfig.default }

/-- `Manual::refresh` — /repo/src/host/manual.rs:32-38 -/
def refresh (B : Bus W E) : M (Manual × W) E Unit := do
  let self := (← M.get).1
  if !self.isSetup then
    M.zoom (fun s : Manual × W => (s.1.current, s.2))
      (fun t s => ({ s.1 with current := t.1 }, t.2)) (writeSettings B self.settings)
    M.modify fun s => ({ s.1 with isSetup := true }, s.2)

instance : Host Manual where
  refresh := refresh
end Manual

/-- `Dhcp` — /repo/src/host/dhcp.rs:7-10: no fields -/
structure Dhcp where
deriving DecidableEq, Repr

namespace Dhcp
/-- `Dhcp::new` — /repo/src/host/dhcp.rs:13-22: the argument is ignored -/
def new (_mac : Mac) : Dhcp := {}

/-- `Dhcp::refresh` — /repo/src/host/dhcp.rs:27-31: does nothing -/
def refresh (_B : Bus W E) : M (Dhcp × W) E Unit := pure ()

instance : Host Dhcp where
  refresh := refresh
end Dhcp

/-! ## Socket allocation — `DeviceState`, /repo/src/device.rs:40-88 -/

/-- `bit_field::BitField::set_bit` on `u8` (without its range check). -/
def setBit (x : U8) (i : Nat) (v : Bool) : U8 :=
  if v then x ||| (1#8 <<< i) else x &&& ~~~(1#8 <<< i)

/-- `DeviceState` — /repo/src/device.rs:40-43 -/
structure DeviceState (H : Type) where
  host : H
  sockets : U8
deriving DecidableEq, Repr

namespace DeviceState
variable {H : Type}

/-- `DeviceState::new` — /repo/src/device.rs:46-51 -/
def new (host : H) : DeviceState H := { host := host, sockets := 0xFF }

/-- The loop `for index in 0..8` of `socket` — /repo/src/device.rs:58-64 — over the indices left. -/
def socketLoop (st : DeviceState H) : List Nat → Option Socket × DeviceState H
  | [] => (none, st)
  | i :: is =>
    if st.sockets.getLsbD i then
      (some (Socket.new (BitVec.ofNat 8 i)), { st with sockets := setBit st.sockets i false })
    else socketLoop st is

/-- `State::socket` — /repo/src/device.rs:57-65 -/
def socket (st : DeviceState H) : Option Socket × DeviceState H :=
  socketLoop st [0, 1, 2, 3, 4, 5, 6, 7]

/-- `State::release_socket` — /repo/src/device.rs:67-69. `none` is the panic of `set_bit` for an index
of 8 or more. -/
def releaseSocket (st : DeviceState H) (s : Socket) : Option (DeviceState H) :=
  if s.index.toNat < 8 then some { st with sockets := setBit st.sockets s.index.toNat true } else none

/-- `State::any_allocated` — /repo/src/device.rs:71-73 -/
def anyAllocated (st : DeviceState H) : Bool := decide (st.sockets ≠ 0xFF)
end DeviceState

/-! ## `Device` — /repo/src/device.rs:90-299 -/

/-- `Device` — /repo/src/device.rs:90-93. (`&mut StateImpl` states, lines 76-88, delegate to the same
functions, so `activate_ref` devices behave identically.) -/
structure Device (W H : Type) where
  bus : W
  state : DeviceState H

/-- `ResetError` — /repo/src/device.rs:15-18 -/
inductive ResetError (E : Type) where
  | socketsNotReleased
  | other (e : E)
deriving DecidableEq, Repr

/-- Read a `[u8; 4]` initialised with 0 and convert it with `Ipv4Addr::from`. -/
def readIp (B : Bus W E) (addr : U16) : M W E Ipv4 := do
  match ← B.readBuf COMMON addr [0, 0, 0, 0] with
  | [a, b, c, d] => pure ⟨a, b, c, d⟩
  | _ => M.panic

/-- Writing `0b1000_0000` to the mode register: `UninitializedDevice::reset`
(/repo/src/uninitialized_device.rs:123-128) and `Device::reset_device` (/repo/src/device.rs:162-167). -/
def resetChip (B : Bus W E) : M W E Unit :=
  B.write COMMON common.MODE [0b10000000]

/-- `set_mode` — /repo/src/uninitialized_device.rs:130-136, /repo/src/device.rs:170-176 -/
def setMode (B : Bus W E) (m : Mode) : M W E Unit :=
  B.write COMMON common.MODE m.toRegister

/-- `version` — /repo/src/uninitialized_device.rs:139-148, /repo/src/device.rs:179-188 -/
def version (B : Bus W E) : M W E U8 :=
  B.read1 COMMON common.VERSION

/-- `set_retry_timeout` — /repo/src/uninitialized_device.rs:165-173, /repo/src/device.rs:207-215 -/
def setRetryTimeout (B : Bus W E) (t : RetryTime) : M W E Unit :=
  B.write COMMON common.RETRY_TIME t.toRegister

/-- `current_retry_timeout` — /repo/src/uninitialized_device.rs:179-188, /repo/src/device.rs:223-232 -/
def currentRetryTimeout (B : Bus W E) : M W E RetryTime := do
  match ← B.readBuf COMMON common.RETRY_TIME [0, 0] with
  | [hi, lo] => pure (RetryTime.fromRegister hi lo)
  | _ => M.panic

/-- `set_retry_count` — /repo/src/uninitialized_device.rs:206-214, /repo/src/device.rs:250-258 -/
def setRetryCount (B : Bus W E) (n : U8) : M W E Unit :=
  B.write COMMON common.RETRY_COUNT [n]

/-- `current_retry_count` — /repo/src/uninitialized_device.rs:222-231, /repo/src/device.rs:267-276 -/
def currentRetryCount (B : Bus W E) : M W E U8 :=
  B.read1 COMMON common.RETRY_COUNT

namespace Device
variable {H : Type}

/-- `&mut self.bus` of a device. -/
def onBus {ε α : Type} (m : M W ε α) : M (Device W H) ε α :=
  M.zoom Device.bus (fun w d => { d with bus := w }) m

/-- `reset` — /repo/src/device.rs:104-111; on success the caller gets the bus back uninitialised -/
def reset (B : Bus W E) : M (Device W H) (ResetError E) Unit := do
  if (← M.get).state.anyAllocated then
    M.throw .socketsNotReleased
  else
    M.mapErr .other (onBus (resetChip B))

/-- `release` — /repo/src/device.rs:113-115 -/
def release (d : Device W H) : W × DeviceState H := (d.bus, d.state)

/-- `take_socket` — /repo/src/device.rs:117-120 -/
def takeSocket : M (Device W H) E (Option Socket) := fun d =>
  let r := d.state.socket
  (.ok r.1, { d with state := r.2 })

/-- `release_socket` — /repo/src/device.rs:122-124 -/
def releaseSocket (s : Socket) : M (Device W H) E Unit := fun d =>
  match d.state.releaseSocket s with
  | some st => (.ok (), { d with state := st })
  | none => (.panic, d)

/-- `gateway` — /repo/src/device.rs:126-131 -/
def gateway (B : Bus W E) : M W E Ipv4 := readIp B common.GATEWAY
/-- `subnet_mask` — /repo/src/device.rs:133-138 -/
def subnetMask (B : Bus W E) : M W E Ipv4 := readIp B common.SUBNET_MASK
/-- `mac` — /repo/src/device.rs:140-145 -/
def mac (B : Bus W E) : M W E Mac := do
  match ← B.readBuf COMMON common.MAC [0, 0, 0, 0, 0, 0] with
  | [a, b, c, d, e, f] => pure ⟨a, b, c, d, e, f⟩
  | _ => M.panic
/-- `ip` — /repo/src/device.rs:147-152 -/
def ip (B : Bus W E) : M W E Ipv4 := readIp B common.IP
/-- `phy_config` — /repo/src/device.rs:154-159 -/
def phyConfig (B : Bus W E) : M W E PhyConfig := do
  pure (PhyConfig.ofU8 (← B.read1 COMMON common.PHY_CONFIG))

end Device

/-- `InactiveDevice` — /repo/src/device.rs:285 -/
structure InactiveDevice (H : Type) where
  state : DeviceState H

/-- `Device::deactivate` — /repo/src/device.rs:278-280 -/
def Device.deactivate {H : Type} (d : Device W H) : W × InactiveDevice H := (d.bus, ⟨d.state⟩)

/-- `InactiveDevice::activate` — /repo/src/device.rs:289-291. `activate_ref` (293-298) builds the same
device around a reference to the state. -/
def InactiveDevice.activate {H : Type} (i : InactiveDevice H) (bus : W) : Device W H :=
  { bus := bus, state := i.state }

/-! ## `UninitializedDevice` — /repo/src/uninitialized_device.rs

The struct only owns the bus, so its methods are functions on the bus state. -/

namespace Uninit

/-- `assert_chip_version` — /repo/src/uninitialized_device.rs:234-245 -/
def assertChipVersion (B : Bus W E) (expected : U8) : M W (InitializeError E) Unit := do
  let v ← M.mapErr .spiError (version B)
  if v ≠ expected then M.throw .chipNotConnected else pure ()

/-- `initialize_with_host` — /repo/src/uninitialized_device.rs:91-105. `assertVersion` is false iff
the cargo feature `no-chip-version-assertion` is on. Returns the device state of the new `Device`, whose bus
is the final bus state. -/
def initializeWithHost {H : Type} [Host H] (assertVersion : Bool) (B : Bus W E) (host : H)
    (mode : Mode) : M W (InitializeError E) (DeviceState H) := do
  if assertVersion then
    assertChipVersion B 0x4
  M.mapErr .spiError (resetChip B)
  M.mapErr .spiError (setMode B mode)
  let (_, host) ← M.mapErr .spiError (M.withLocal host (Host.refresh B))
  pure (DeviceState.new host)

/-- `initialize` — /repo/src/uninitialized_device.rs:54-61 -/
def «initialize» (assertVersion : Bool) (B : Bus W E) (mac : Mac) (mode : Mode) :
    M W (InitializeError E) (DeviceState Dhcp) :=
  initializeWithHost assertVersion B (Dhcp.new mac) mode

/-- `initialize_advanced` — /repo/src/uninitialized_device.rs:79-89 -/
def initializeAdvanced (assertVersion : Bool) (B : Bus W E) (mac : Mac) (ip gateway subnet : Ipv4)
    (mode : Mode) : M W (InitializeError E) (DeviceState Manual) :=
  initializeWithHost assertVersion B (Manual.new mac ip gateway subnet) mode

/-- `initialize_manual` — /repo/src/uninitialized_device.rs:66-77 -/
def initializeManual (assertVersion : Bool) (B : Bus W E) (mac : Mac) (ip : Ipv4) (mode : Mode) :
    M W (InitializeError E) (DeviceState Manual) :=
  let gateway : Ipv4 := { ip with d := 1 }
  let subnet : Ipv4 := ⟨255, 255, 255, 0⟩
  initializeAdvanced assertVersion B mac ip gateway subnet mode

/-- `initialize_macraw` — /repo/src/uninitialized_device.rs:107-119 -/
def initializeMacraw (B : Bus W E) (mac : Mac) : M W (InitializeError E) RawDevice := do
  M.mapErr .spiError (B.write COMMON common.MODE [0x80])
  M.mapErr .spiError (B.write COMMON common.MAC mac.octets)
  RawDevice.new B

end Uninit
end W5500
