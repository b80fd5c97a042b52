import Verif.Proofs.Feed
import Verif.Proofs.SettingsRun
import Verif.Props.Wire
import Verif.Props.Init
import Verif.Props.System
/-! # Driving a chip over three wires

C82 An initialisation that returned Ok has configured the chip. -/

namespace W5500.Props
open W5500.Spec ByteDev
variable {C E : Type}

/-! ## C82 -/

/-- C82, partial: it holds over the four-wire bus. The registers of the settings and the mode register hold what was asked for;
every other common register and all socket registers hold their reset values. Missing: the three-wire bus. -/
theorem C82_partial {sched : Nat → List (Nat × Act)} {faults : Nat → Option (E × Nat)} (assert : Bool) (mac : Mac)
    (ip gateway subnet : Ipv4) (mode : Mode) (c c' : Chip) (st : DeviceState Manual)
    (h : Uninit.initializeAdvanced assert (FourWire.bus (Chip.dev sched faults).spiDevice) mac ip gateway subnet mode c = (.ok st, c')) :
    Configured c' mac ip gateway subnet ∧ (∀ i, (c'.cmem 0x00).getLsbD i = modeBit mode i) ∧
      (∀ a : U16, 0x12 < a.toNat → c'.cmem a = Chip.commonReset a) ∧ ∀ n, (c'.socks n).mem = socketReset := by
  rw [C01_refinement] at h
  refine ⟨(C25 assert mac ip gateway subnet mode c c' st h).1, (C25 assert mac ip gateway subnet mode c c' st h).2.1, fun a ha => ?_,
    C62_advanced assert mac ip gateway subnet mode c c' st h⟩
  obtain ⟨c1, host', ⟨h1, _⟩, h2, rfl⟩ := initializeWithHost_ok h
  have h3 : c'.cmem a = c1.cmem a := (hoare_refresh_other (sched := sched) (faults := faults) (c1.cmem a) a (.inr ha)).ok
    (s := (Manual.new mac ip gateway subnet, c1)) rfl h2
  have hc : c1.cmem = (resetAndMode mode).cmem := congrArg RegFile.cmem h1
  rw [h3, hc]
  have h0 : a ≠ 0x00 := by intro h; subst h; simp at ha
  exact if_neg h0

/-- The hypotheses of C82_partial and C82_initialize_partial are met: from a chip with leftovers in its registers. -/
example :
    let c : Chip := { Chip.powerUp with cmem := fun a => if a = 0x39 then 4 else 0x55 }
    (Uninit.initializeAdvanced true (FourWire.bus (Chip.dev demoSched noFaults).spiDevice) ⟨1, 2, 3, 4, 5, 6⟩ ⟨10, 0, 0, 9⟩ ⟨10, 0, 0, 1⟩
      ⟨255, 0, 0, 0⟩ Mode.default c).1 = .ok (.new (⟨true, ⟨⟨1, 2, 3, 4, 5, 6⟩, ⟨10, 0, 0, 9⟩, ⟨10, 0, 0, 1⟩, ⟨255, 0, 0, 0⟩⟩,
      ⟨⟨1, 2, 3, 4, 5, 6⟩, ⟨10, 0, 0, 9⟩, ⟨10, 0, 0, 1⟩, ⟨255, 0, 0, 0⟩⟩⟩)) ∧
    (Uninit.initialize true (FourWire.bus (Chip.dev demoSched noFaults).spiDevice) ⟨1, 2, 3, 4, 5, 6⟩ Mode.default c).1 =
      .ok (.new (.new ⟨1, 2, 3, 4, 5, 6⟩)) := by
  decide +kernel

/-- C82 for `initialize_manual`, partial: likewise; gateway and subnet mask are derived from the address. Missing: the three-wire
bus. -/
theorem C82_manual_partial {sched : Nat → List (Nat × Act)} {faults : Nat → Option (E × Nat)} (assert : Bool) (mac : Mac)
    (i1 i2 i3 i4 : U8) (mode : Mode) (c c' : Chip) (st : DeviceState Manual)
    (h : Uninit.initializeManual assert (FourWire.bus (Chip.dev sched faults).spiDevice) mac ⟨i1, i2, i3, i4⟩ mode c = (.ok st, c')) :
    Configured c' mac ⟨i1, i2, i3, i4⟩ ⟨i1, i2, i3, 1⟩ ⟨255, 255, 255, 0⟩ ∧ (∀ i, (c'.cmem 0x00).getLsbD i = modeBit mode i) ∧
      (∀ a : U16, 0x12 < a.toNat → c'.cmem a = Chip.commonReset a) ∧ ∀ n, (c'.socks n).mem = socketReset :=
  C82_partial assert mac _ _ _ mode c c' st h

example :
    (Uninit.initializeManual true (FourWire.bus (Chip.dev demoSched noFaults).spiDevice) ⟨1, 2, 3, 4, 5, 6⟩ ⟨10, 0, 0, 9⟩ Mode.default
      Chip.powerUp).1 = .ok (.new (⟨true, ⟨⟨1, 2, 3, 4, 5, 6⟩, ⟨10, 0, 0, 9⟩, ⟨10, 0, 0, 1⟩, ⟨255, 255, 255, 0⟩⟩,
      ⟨⟨1, 2, 3, 4, 5, 6⟩, ⟨10, 0, 0, 9⟩, ⟨10, 0, 0, 1⟩, ⟨255, 255, 255, 0⟩⟩⟩)) := by
  decide +kernel

/-- C82 for `initialize`, partial: likewise; it has no settings but the mode to write (it does not write the MAC address
either: C27). Missing: the three-wire bus. -/
theorem C82_initialize_partial {sched : Nat → List (Nat × Act)} {faults : Nat → Option (E × Nat)} (assert : Bool) (mac : Mac)
    (mode : Mode) (c c' : Chip) (st : DeviceState Dhcp)
    (h : Uninit.initialize assert (FourWire.bus (Chip.dev sched faults).spiDevice) mac mode c = (.ok st, c')) :
    (∀ i, (c'.cmem 0x00).getLsbD i = modeBit mode i) ∧
      (∀ a : U16, a ≠ 0x00 → c'.cmem a = Chip.commonReset a) ∧ ∀ n, (c'.socks n).mem = socketReset := by
  rw [C01_refinement] at h
  have hs := C62_dhcp assert mac mode c c' st h
  obtain ⟨c1, host', ⟨h1, _⟩, h2, rfl⟩ := initializeWithHost_ok h
  cases h2
  have hc : c'.cmem = (resetAndMode mode).cmem := congrArg RegFile.cmem h1
  refine ⟨fun i => ?_, fun a ha => ?_, hs⟩
  · rw [hc, ← C06_mode_bits]; rfl
  · rw [hc]; exact if_neg ha

variable (D : ByteDev C E)

/-- After the version check (if there is one), reset and mode: the chip has read three or four registers, and takes the mode
for the upper half of an address. -/
theorem three_head (oc assert : Bool) (mode : Mode) (c : C) (hv : assert = true → (D.readByte c 0 0x39).1 = 4) {α : Type}
    (k : M (Phase × C) (InitializeError E) α) : ∃ c', D.Looks c c' ∧
    (do
      if assert then
        Uninit.assertChipVersion (ThreeWire.bus oc (D.spiBus E)) 0x4
      M.mapErr .spiError (resetChip (ThreeWire.bus oc (D.spiBus E)))
      M.mapErr .spiError (setMode (ThreeWire.bus oc (D.spiBus E)) mode)
      k) (.idle, c) = k (.addrLo mode.toU8, c') := by
  have rest : ∀ c1, (do
      M.mapErr InitializeError.spiError (resetChip (ThreeWire.bus oc (D.spiBus E)))
      M.mapErr .spiError (setMode (ThreeWire.bus oc (D.spiBus E)) mode)
      k) (.idle, c1) = k (.addrLo mode.toU8, (D.readBytes c1 0 0 4).2) := by
    intro c1
    rw [M.bind_ok (M.mapErr_ok (write1_feed D oc (.idle, c1) 0 0 0x80 (by decide)))]
    rw [M.bind_ok (M.mapErr_ok (write1_feed D oc _ 0 0 mode.toU8 (by decide)))]
    rfl
  cases assert
  · exact ⟨_, looks_readBytes D c _ _ _, rest c⟩
  · have h1 : (Uninit.assertChipVersion (ThreeWire.bus oc (D.spiBus E)) 0x4) (.idle, c) = (.ok (), (.idle, (D.readByte c 0 0x39).2)) := by
      have h2 : (version (ThreeWire.bus oc (D.spiBus E))) (.idle, c) = (.ok 4, (.idle, (D.readByte c 0 0x39).2)) := by
        refine read1_ok ?_
        rw [C03_read_partial oc D c _ _ [0] (.inl (by decide)) (fun _ => by decide), ← hv rfl]
        rfl
      unfold Uninit.assertChipVersion
      rw [M.bind_ok (M.mapErr_ok h2)]
      rfl
    exact ⟨_, .trans (.read 0 0x39 (.refl c)) (looks_readBytes D _ _ _ _), (M.bind_ok h1).trans (rest _)⟩

/-- C82 is false over the three-wire bus, for every MAC address, mode and chip: `initialize` returns `Ok`, and nothing was
written. (The one-byte writes are sent with a control byte for four-byte reads.) -/
theorem C82_refuted (oc assert : Bool) (mac : Mac) (mode : Mode) (c : C) (hv : assert = true → (D.readByte c 0 0x39).1 = 4) :
    ∃ st p c', Uninit.initialize assert (ThreeWire.bus oc (D.spiBus E)) mac mode (.idle, c) = (.ok st, (p, c')) ∧ D.Looks c c' := by
  obtain ⟨c', h1, h2⟩ := three_head D oc assert mode c hv (do
    let (_, host) ← M.mapErr .spiError (M.withLocal (Dhcp.new mac) (Host.refresh (ThreeWire.bus oc (D.spiBus E))))
    pure (DeviceState.new host))
  exact ⟨_, _, c', h2, h1⟩

/-- The bytes of the frames of `write_settings` as they go over the wire; those of settings that are all zero are left out. -/
def gatewayBytes (g : Ipv4) : List U8 := [0x00, 0x01, 0x03, g.a, g.b, g.c, g.d]
@[inherit_doc gatewayBytes] def subnetBytes (m : Ipv4) : List U8 := if m = ⟨0, 0, 0, 0⟩ then [] else [0x00, 0x05, 0x03, m.a, m.b, m.c, m.d]
@[inherit_doc gatewayBytes] def macBytes (m : Mac) : List U8 :=
  if m = ⟨0, 0, 0, 0, 0, 0⟩ then [] else [0x00, 0x09, 0x03, m.o0, m.o1, m.o2, m.o3, 0x00, 0x0D, 0x03, m.o4, m.o5]
@[inherit_doc gatewayBytes] def ipBytes (i : Ipv4) : List U8 := if i = ⟨0, 0, 0, 0⟩ then [] else [0x00, 0x0F, 0x03, i.a, i.b, i.c, i.d]

/-- What `initialize_advanced` does over three wires, given a gateway: it returns `Ok`, and the chip, which is out of step after
the mode, gets the bytes of the settings. -/
theorem three_advanced (oc assert : Bool) (mac : Mac) (ip g m : Ipv4) (mode : Mode) (c : C)
    (hv : assert = true → (D.readByte c 0 0x39).1 = 4) (hg : g ≠ ⟨0, 0, 0, 0⟩) : ∃ c', D.Looks c c' ∧
    Uninit.initializeAdvanced assert (ThreeWire.bus oc (D.spiBus E)) mac ip g m mode (.idle, c) =
      (.ok ⟨⟨true, ⟨mac, ip, g, m⟩, ⟨mac, ip, g, m⟩⟩, 0xFF⟩,
        D.feed (.addrLo mode.toU8, c') (gatewayBytes g ++ (subnetBytes m ++ (macBytes mac ++ ipBytes ip)))) := by
  obtain ⟨c', h1, h2⟩ := three_head D oc assert mode c hv (do
    let (_, host) ← M.mapErr .spiError (M.withLocal (Manual.new mac ip g m) (Host.refresh (ThreeWire.bus oc (D.spiBus E))))
    pure (DeviceState.new host))
  refine ⟨c', h1, h2.trans ?_⟩
  have h4 : ∀ (s : Phase × C) (a : U16) (x : Ipv4), a.toNat + 4 ≤ 65535 →
      (if x ≠ Ipv4.unspecified then (ThreeWire.bus oc (D.spiBus E)).writeFrame s 0 a x.octets else (.ok (), s)) =
      (.ok (), D.feed s (if x = ⟨0, 0, 0, 0⟩ then [] else toBeBytes a ++ [3, x.a, x.b, x.c, x.d])) := by
    intro s a x ha
    by_cases hx : x = ⟨0, 0, 0, 0⟩
    · rw [if_neg (fun h => h hx), if_pos hx]; rfl
    · rw [if_pos (show x ≠ Ipv4.unspecified from hx), if_neg hx]; exact write4_feed D oc s 0 a _ _ _ _ ha
  have h6 : ∀ (s : Phase × C),
      (if mac ≠ Mac.unspecified then (ThreeWire.bus oc (D.spiBus E)).writeFrame s 0 0x09 mac.octets else (.ok (), s)) =
      (.ok (), D.feed s (macBytes mac)) := by
    intro s
    unfold macBytes
    by_cases hx : mac = ⟨0, 0, 0, 0, 0, 0⟩
    · rw [if_neg (fun h => h hx), if_pos hx]; rfl
    · rw [if_pos (show mac ≠ Mac.unspecified from hx), if_neg hx]; exact write6_feed D oc s 0 0x09 _ _ _ _ _ _ (by decide)
  rw [M.bind_ok (M.mapErr_ok (refresh_run (ThreeWire.bus oc (D.spiBus E)) mac ip g m
    (h4 _ 0x01 g (by decide)) (h4 _ 0x05 m (by decide)) (h6 _) (h4 _ 0x0F ip (by decide))))]
  rw [feed_append, feed_append, feed_append, if_neg hg]
  rfl

/-- C82 is false over the three-wire bus: if the third byte of the gateway is a multiple of 8 (192.168.0.1, say), then
`initialize_advanced` returns `Ok`, nothing was written, and nothing will be: whatever frames are sent afterwards, the chip
reads. -/
theorem C82_dead (oc assert : Bool) (mac : Mac) (ip g m : Ipv4) (mode : Mode) (c : C)
    (hv : assert = true → (D.readByte c 0 0x39).1 = 4) (hg : g ≠ ⟨0, 0, 0, 0⟩) (h8 : g.c &&& 7 = 0) :
    ∃ st s, Uninit.initializeAdvanced assert (ThreeWire.bus oc (D.spiBus E)) mac ip g m mode (.idle, c) = (.ok st, s) ∧
      D.Looks c s.2 ∧
      ∀ s', Reach (ThreeWire.bus oc (D.spiBus E)) (fun _ _ _ => True) s s' → D.Looks c s'.2 := by
  obtain ⟨c', h1, h2⟩ := three_advanced D oc assert mac ip g m mode c hv hg
  have hc : g.c.getLsbD 2 = false ∧ omLength (g.c.extractLsb' 0 2) = none := by
    clear h2 hg; generalize g.c = x at h8; revert x; decide +kernel
  have hs : ∀ l, ∃ c'' b a, D.feed (.addrLo mode.toU8, c') (gatewayBytes g ++ l) = D.feed (.data b false a none, c'') (g.d :: l) ∧
      D.Looks c' c'' := by
    intro l
    refine ⟨(D.readByte c' 0 (mode.toU8 ++ 0x00#8)).2, g.c.extractLsb' 3 5, g.a ++ g.b, ?_, .read _ _ (.refl _)⟩
    rw [← hc.1, ← hc.2]; rfl
  obtain ⟨c'', b, a, h3, h4⟩ := hs (subnetBytes m ++ (macBytes mac ++ ipBytes ip))
  rw [h3] at h2
  refine ⟨_, _, h2, ?_, fun s' hr => ?_⟩
  · obtain ⟨_, _, h5⟩ := feed_stuck D b (g.d :: (subnetBytes m ++ (macBytes mac ++ ipBytes ip))) a c''
    exact h1.trans (h4.trans h5)
  · obtain ⟨l, rfl⟩ := reach_feed D hr
    rw [← feed_append]
    obtain ⟨_, _, h5⟩ := feed_stuck D b (g.d :: (subnetBytes m ++ (macBytes mac ++ ipBytes ip)) ++ l) a c''
    exact h1.trans (h4.trans h5)

/-- The same for `initialize_manual`, if the third byte of the address is a multiple of 8 (192.168.0.x, say). -/
theorem C82_manual_dead (oc assert : Bool) (mac : Mac) (i1 i2 i3 i4 : U8) (mode : Mode) (c : C)
    (hv : assert = true → (D.readByte c 0 0x39).1 = 4) (h8 : i3 &&& 7 = 0) :
    ∃ st s, Uninit.initializeManual assert (ThreeWire.bus oc (D.spiBus E)) mac ⟨i1, i2, i3, i4⟩ mode (.idle, c) = (.ok st, s) ∧
      D.Looks c s.2 ∧
      ∀ s', Reach (ThreeWire.bus oc (D.spiBus E)) (fun _ _ _ => True) s s' → D.Looks c s'.2 :=
  C82_dead D oc assert mac ⟨i1, i2, i3, i4⟩ ⟨i1, i2, i3, 1⟩ ⟨255, 255, 255, 0⟩ mode c hv (by simp) h8

/-- C82 is false over the three-wire bus: if the third byte of the gateway is 4 modulo 8, `initialize_advanced` returns `Ok`, and
has written the last byte of the gateway and the raw frames of the other settings to some block at an address the driver did not ask
for: block and address are made of the other bytes of the gateway. -/
theorem C82_stray (oc assert : Bool) (mac : Mac) (ip g m : Ipv4) (mode : Mode) (c : C)
    (hv : assert = true → (D.readByte c 0 0x39).1 = 4) (h8 : g.c &&& 7 = 4) :
    ∃ st p c', Uninit.initializeAdvanced assert (ThreeWire.bus oc (D.spiBus E)) mac ip g m mode (.idle, c) =
        (.ok st, (p, D.writeBytes c' (g.c.extractLsb' 3 5) (g.a ++ g.b) (g.d :: (subnetBytes m ++ (macBytes mac ++ ipBytes ip))))) ∧
      D.Looks c c' := by
  have hg : g ≠ ⟨0, 0, 0, 0⟩ := by rintro rfl; revert h8; decide
  obtain ⟨c', h1, h2⟩ := three_advanced D oc assert mac ip g m mode c hv hg
  have hc : g.c.getLsbD 2 = true ∧ omLength (g.c.extractLsb' 0 2) = none := by
    clear h2 hg; generalize g.c = x at h8; revert x; decide +kernel
  refine ⟨_, _, _, h2.trans (congrArg (Prod.mk _) (Prod.ext rfl ?_)), h1.trans (.read 0 (mode.toU8 ++ 0x00#8) (.refl _))⟩
  rw [← feed_written, ← hc.1, ← hc.2]; rfl

/-- 192.168.0.1 as gateway: the registers keep their values, and a later write frame changes nothing either. -/
example : (let B := ThreeWire.bus true ((regFile 0 0).spiBus Unit)
    let r := Uninit.initializeAdvanced true B ⟨2, 0, 0, 0, 0, 1⟩ ⟨192, 168, 0, 9⟩ ⟨192, 168, 0, 1⟩ ⟨255, 255, 255, 0⟩ Mode.default
      (.idle, (0, fun b a => if b = 0 ∧ a = 0x39 then 4 else 0x55))
    let r' := B.writeFrame r.2 0 0x01 [1, 2, 3, 4]
    r.1 = .ok ⟨⟨true, ⟨⟨2, 0, 0, 0, 0, 1⟩, ⟨192, 168, 0, 9⟩, ⟨192, 168, 0, 1⟩, ⟨255, 255, 255, 0⟩⟩,
      ⟨⟨2, 0, 0, 0, 0, 1⟩, ⟨192, 168, 0, 9⟩, ⟨192, 168, 0, 1⟩, ⟨255, 255, 255, 0⟩⟩⟩, 0xFF⟩ ∧ r.2.2.2 0 0x0F = 0x55 ∧ r'.1 = .ok () ∧ r'.2.2.2 0 0x01 = 0x55) := by decide +kernel

/-- 10.0.20.1 as gateway: the transmit memory of socket 0 (block 2) gets `01 00 05 03 FF …` at 0x0A00. -/
example : (let B := ThreeWire.bus true ((regFile 0 0).spiBus Unit)
    let r := Uninit.initializeAdvanced true B ⟨2, 0, 0, 0, 0, 1⟩ ⟨10, 0, 20, 9⟩ ⟨10, 0, 20, 1⟩ ⟨255, 255, 255, 0⟩ Mode.default
      (.idle, (0, fun b a => if b = 0 ∧ a = 0x39 then 4 else 0x55))
    r.1 = .ok ⟨⟨true, ⟨⟨2, 0, 0, 0, 0, 1⟩, ⟨10, 0, 20, 9⟩, ⟨10, 0, 20, 1⟩, ⟨255, 255, 255, 0⟩⟩,
      ⟨⟨2, 0, 0, 0, 0, 1⟩, ⟨10, 0, 20, 9⟩, ⟨10, 0, 20, 1⟩, ⟨255, 255, 255, 0⟩⟩⟩, 0xFF⟩ ∧ r.2.2.2 0 0x0F = 0x55 ∧ (List.range 5).map (fun i => r.2.2.2 2 (0x0A00 + BitVec.ofNat 16 i)) = [1, 0, 5, 3, 255]) := by
  decide +kernel

/-- The same chip over four wires: configured. -/
example : (let B := FourWire.bus (regFile 99 0).spiDevice
    let r := Uninit.initializeAdvanced true B ⟨2, 0, 0, 0, 0, 1⟩ ⟨10, 0, 20, 9⟩ ⟨10, 0, 20, 1⟩ ⟨255, 255, 255, 0⟩ Mode.default
      (0, fun b a => if b = 0 ∧ a = 0x39 then 4 else 0x55)
    r.1 = .ok ⟨⟨true, ⟨⟨2, 0, 0, 0, 0, 1⟩, ⟨10, 0, 20, 9⟩, ⟨10, 0, 20, 1⟩, ⟨255, 255, 255, 0⟩⟩,
      ⟨⟨2, 0, 0, 0, 0, 1⟩, ⟨10, 0, 20, 9⟩, ⟨10, 0, 20, 1⟩, ⟨255, 255, 255, 0⟩⟩⟩, 0xFF⟩ ∧ (List.range 4).map (fun i => r.2.2 0 (0x0F + BitVec.ofNat 16 i)) = [10, 0, 20, 9]) := by decide +kernel

end W5500.Props
