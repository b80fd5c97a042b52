import Verif.Model.Udp
import Verif.Spec.Datasheet
/-! # Properties of the pure encoders and decoders: C06 – C13 -/

namespace W5500.Props
open W5500 W5500.Spec

/-! ## C06 Mode register encoding -/

/-- What bit `i` of the mode register has to be. -/
def modeBit (m : Mode) : Nat → Bool
  | 5 => decide (m.onWakeOnLan = .invokeInterrupt)
  | 4 => decide (m.onPingRequest = .ignore)
  | 3 => decide (m.connectionType = .ppoe)
  | 1 => decide (m.arpResponses = .dropAfterUse)
  | _ => false

/-- C06: every bit of `Mode::to_u8` is as documented (all bits other than 5, 4, 3, 1, in particular the
reset bit 7, are clear). -/
theorem C06_mode_bits (m : Mode) (i : Nat) : m.toU8.getLsbD i = modeBit m i := by
  by_cases h : i < 8
  · rcases m with ⟨a, b, c, d⟩
    have : i = 0 ∨ i = 1 ∨ i = 2 ∨ i = 3 ∨ i = 4 ∨ i = 5 ∨ i = 6 ∨ i = 7 := by omega
    rcases this with rfl | rfl | rfl | rfl | rfl | rfl | rfl | rfl <;>
      cases a <;> cases b <;> cases c <;> cases d <;> decide
  · rw [BitVec.getLsbD_of_ge _ _ (by omega)]
    have : i ≠ 5 ∧ i ≠ 4 ∧ i ≠ 3 ∧ i ≠ 1 := by omega
    unfold modeBit
    split <;> first | omega | rfl

/-- C06: different modes give different bytes, and `to_register` is that byte. -/
theorem C06_mode_injective (m m' : Mode) (h : m.toRegister = m'.toRegister) : m = m' := by
  have h : m.toU8 = m'.toU8 := by simpa [Mode.toRegister] using h
  have b5 := congrArg (·.getLsbD 5) h
  have b4 := congrArg (·.getLsbD 4) h
  have b3 := congrArg (·.getLsbD 3) h
  have b1 := congrArg (·.getLsbD 1) h
  simp only [C06_mode_bits, modeBit] at b5 b4 b3 b1
  rcases m with ⟨a, b, c, d⟩
  rcases m' with ⟨a', b', c', d'⟩
  cases a <;> cases a' <;> cases b <;> cases b' <;> cases c <;> cases c' <;> cases d <;> cases d' <;>
    simp at b5 b4 b3 b1 ⊢

example : (Mode.mk .invokeInterrupt .respond .ppoe .dropAfterUse).toU8 = 0b00101010 := by decide

/-! ## C07 RetryTime register round trip -/

/-- C07: the register bytes are the value, most significant byte first. -/
theorem C07_to_register (t : RetryTime) : t.toRegister = be t.toU16.toNat := by
  rcases t with ⟨v⟩
  simp only [RetryTime.toRegister, RetryTime.toU16, toBeBytes, be, List.cons.injEq, and_true]
  have := v.isLt
  constructor <;> apply BitVec.eq_of_toNat_eq <;>
    simp [Nat.shiftRight_eq_div_pow]

/-- C07: reading the register gives the value of the byte pair. -/
theorem C07_from_register (hi lo : U8) : (RetryTime.fromRegister hi lo).toU16.toNat = ofBe hi lo := by
  simp only [RetryTime.fromRegister, RetryTime.toU16, fromBeBytes, ofBe, BitVec.toNat_append]
  have := lo.isLt
  rw [Nat.shiftLeft_eq, Nat.mul_comm, ← Nat.two_pow_add_eq_or_of_lt (by omega)]

/-- C07: `from_register ∘ to_register` is the identity. -/
theorem C07_roundtrip (t : RetryTime) :
    ∃ hi lo, t.toRegister = [hi, lo] ∧ RetryTime.fromRegister hi lo = t := by
  refine ⟨_, _, rfl, ?_⟩
  rcases t with ⟨v⟩
  simp only [RetryTime.fromRegister, fromBeBytes, RetryTime.mk.injEq]
  apply BitVec.eq_of_getLsbD_eq
  intro i hi
  simp only [BitVec.getLsbD_append, BitVec.getLsbD_extractLsb']
  by_cases h : i < 8 <;> simp [h] <;> grind

/-- C07: `to_register ∘ from_register` is the identity on all byte pairs. -/
theorem C07_roundtrip' (hi lo : U8) : (RetryTime.fromRegister hi lo).toRegister = [hi, lo] := by
  simp only [RetryTime.fromRegister, RetryTime.toRegister, fromBeBytes, toBeBytes, List.cons.injEq,
    and_true]
  constructor <;> apply BitVec.eq_of_getLsbD_eq <;> intro i h <;>
    simp only [BitVec.getLsbD_extractLsb', BitVec.getLsbD_append] <;> simp [h] <;> grind

example : RetryTime.toRegister ⟨4000⟩ = [0x0F, 0xA0] := by decide

/-! ## C08 RetryTime milliseconds

Full statement (`C08_full`): `from_millis` is exact for every `u16`. It is false of the code: see
`C08_fails`. -/

/-- The full claim of C08 for a build with (`oc = true`) or without overflow checks. -/
def C08_full (oc : Bool) : Prop :=
  ∀ ms : U16, ∃ t, RetryTime.fromMillis oc ms = some t ∧ t.toU16.toNat = 10 * ms.toNat ∧ t.toMillis = ms

/-- C08, proved part: exact for every value up to 6553 ms. Missing: 6554..65535 (`C08_fails`). -/
theorem C08_millis_exact_partial (oc : Bool) (ms : U16) (h : ms.toNat ≤ 6553) :
    ∃ t, RetryTime.fromMillis oc ms = some t ∧ t.toU16.toNat = 10 * ms.toNat ∧ t.toMillis = ms := by
  have hv : (ms * 10).toNat = 10 * ms.toNat := by
    rw [BitVec.toNat_mul]; simp; omega
  refine ⟨⟨ms * 10⟩, ?_, hv, ?_⟩
  · unfold RetryTime.fromMillis
    rw [if_neg]; simp; omega
  · apply BitVec.eq_of_toNat_eq
    simp only [RetryTime.toMillis, BitVec.toNat_udiv, hv]
    simp

/-- C08, refutation: for EVERY value above 6553 ms `from_millis` panics with overflow checks and gives a
wrong time without; so the bound of the partial theorem is tight. -/
theorem C08_fails (ms : U16) (h : 6553 < ms.toNat) :
    RetryTime.fromMillis true ms = none ∧
    ∃ t, RetryTime.fromMillis false ms = some t ∧ t.toU16.toNat ≠ 10 * ms.toNat ∧ t.toMillis ≠ ms := by
  refine ⟨by unfold RetryTime.fromMillis; rw [if_pos]; simp; omega, ⟨ms * 10⟩, by
    unfold RetryTime.fromMillis; simp, ?_, ?_⟩
  · have := (ms * 10).isLt
    simp only [RetryTime.toU16]; omega
  · intro hc
    have := congrArg BitVec.toNat hc
    simp only [RetryTime.toMillis, BitVec.toNat_udiv] at this
    have := (ms * 10).isLt
    simp at *; omega

theorem C08_full_false (oc : Bool) : ¬ C08_full oc := by
  intro hf
  obtain ⟨h1, t, ht, hne, _⟩ := C08_fails 6554 (by decide)
  obtain ⟨t', ht', heq, _⟩ := hf 6554
  cases oc
  · rw [ht] at ht'; cases ht'; exact hne heq
  · rw [h1] at ht'; cases ht'

example : RetryTime.default true = some ⟨2000⟩ := by decide

/-! ## C09 PHY configuration -/

/-- C09 (flags): link, speed and duplex are bits 0, 1, 2. -/
theorem C09_phy_flags (b : U8) :
    ((PhyConfig.ofU8 b).linkUp = true ↔ b.toNat % 2 = 1) ∧
    ((PhyConfig.ofU8 b).speed = .mbps100 ↔ b.toNat / 2 % 2 = 1) ∧
    ((PhyConfig.ofU8 b).duplex = .fullDuplex ↔ b.toNat / 4 % 2 = 1) := by
  revert b; decide +kernel

/-- C09, proved part: the operation mode is the datasheet's meaning of bits 5..3, for every byte that the
datasheet defines. Missing: "no accessor panics" is false for bits `101`, see `C09_fails`. -/
theorem C09_operation_mode_partial (b : U8) (h : b.toNat / 8 % 8 ≠ 5) :
    ∃ m, (PhyConfig.ofU8 b).operationMode = some m ∧ opmdc (b.toNat / 8 % 8) = some m := by
  have : ∀ b : U8, b.toNat / 8 % 8 ≠ 5 →
      ((PhyConfig.ofU8 b).operationMode = opmdc (b.toNat / 8 % 8) ∧
        (PhyConfig.ofU8 b).operationMode.isSome) := by decide +kernel
  obtain ⟨h1, h2⟩ := this b h
  obtain ⟨m, hm⟩ := Option.isSome_iff_exists.mp h2
  exact ⟨m, hm, by rw [← h1, hm]⟩

/-- C09, refutation: `operation_mode` panics on every byte whose bits 5..3 are `101`. -/
theorem C09_fails (b : U8) (h : b.toNat / 8 % 8 = 5) : (PhyConfig.ofU8 b).operationMode = none := by
  revert b; decide +kernel

example : (0xAF#8).toNat / 8 % 8 = 5 := by decide
example : (PhyConfig.ofU8 0xBF).operationMode = some .auto := by decide

/-! ## C10 Status decoding -/

/-- C10: a byte decodes to `s` iff the datasheet table says so. -/
theorem C10_status_decode (x : U8) (s : socketn.Status) :
    socketn.Status.tryFrom x = some s ↔ (x, s) ∈ statusTable := by
  have : ∀ x : U8, (∀ s, (x, s) ∈ statusTable ↔ socketn.Status.tryFrom x = some s) := by
    intro x
    have hx : ∀ x : U8, socketn.Status.tryFrom x = (statusTable.find? (fun p => p.1 == x)).map (·.2) := by
      decide +kernel
    have huniq : ∀ p ∈ statusTable, ∀ q ∈ statusTable, p.1 = q.1 → p = q := by decide
    intro s
    rw [hx x]
    constructor
    · intro hm
      cases hf : statusTable.find? (fun p => p.1 == x) with
      | none => simpa using List.find?_eq_none.mp hf _ hm
      | some q =>
        have h1 := List.find?_some hf
        have h2 := List.mem_of_find?_eq_some hf
        have := huniq _ hm _ h2 (by simpa using (eq_of_beq h1).symm)
        simp [← this]
    · intro hs
      cases hf : statusTable.find? (fun p => p.1 == x) with
      | none => rw [hf] at hs; simp at hs
      | some q =>
        have h1 := List.find?_some hf
        have h2 := List.mem_of_find?_eq_some hf
        rw [hf] at hs
        simp only [Option.map_some, Option.some.injEq] at hs
        have : q = (x, s) := Prod.ext (eq_of_beq h1) hs
        rwa [this] at h2
  exact (this x s).symm

/-- C10: every other byte is rejected. -/
theorem C10_status_reject (x : U8) :
    socketn.Status.tryFrom x = none ↔ ∀ s, (x, s) ∉ statusTable := by
  rw [← Option.not_isSome_iff_eq_none, Option.isSome_iff_exists]
  constructor
  · intro h s hm; exact h ⟨s, (C10_status_decode x s).mpr hm⟩
  · rintro h ⟨s, hs⟩; exact h s ((C10_status_decode x s).mp hs)

/-- C10: decoding inverts `status as u8`. -/
theorem C10_status_roundtrip (s : socketn.Status) : socketn.Status.tryFrom s.toU8 = some s := by
  cases s <;> decide

example : socketn.Status.tryFrom 0x19 = none := by decide

/-! ## C11 MAC addresses -/

/-- C11: octets round trip, through `new` and through `From<[u8; 6]>`. -/
theorem C11_mac_roundtrip (a b c d e f : U8) :
    (Mac.new a b c d e f).octets = [a, b, c, d, e, f] ∧
    Mac.fromArray [a, b, c, d, e, f] = some (Mac.new a b c d e f) := ⟨rfl, rfl⟩

/-- C11: the address is determined by its octets. -/
theorem C11_mac_octets_injective (m m' : Mac) (h : m.octets = m'.octets) : m = m' := by
  rcases m with ⟨⟩; rcases m' with ⟨⟩
  simpa [Mac.octets] using h

theorem hex2_eq : ∀ x : U8, Mac.hex2 x = hexByte x := by decide +kernel

/-- C11: `Display` prints six colon separated groups of two upper-case hexadecimal digits. -/
theorem C11_mac_display (m : Mac) : m.display = colonSep (m.octets.map hexByte) := by
  simp [Mac.display, Mac.octets, colonSep, hex2_eq]

theorem hexByte_inj : ∀ x y : U8, hexByte x = hexByte y → x = y := by
  have h : ∀ x : U8, ((hexByte x).map fun c => hexDigits.idxOf c) = [x.toNat / 16, x.toNat % 16] := by
    decide +kernel
  intro x y hxy
  have hx := h x
  rw [hxy, h y] at hx
  simp only [List.cons.injEq, and_true] at hx
  apply BitVec.eq_of_toNat_eq
  omega

/-- C11: different addresses print differently. -/
theorem C11_mac_display_injective (m m' : Mac) (h : m.display = m'.display) : m = m' := by
  rw [C11_mac_display, C11_mac_display] at h
  rcases m with ⟨⟩; rcases m' with ⟨⟩
  simp only [Mac.octets, List.map_cons, List.map_nil, colonSep, hexByte, List.cons_append,
    List.nil_append, List.cons.injEq, and_true, true_and] at h
  obtain ⟨h0, h0', h1, h1', h2, h2', h3, h3', h4, h4', h5, h5'⟩ := h
  simp only [Mac.mk.injEq]
  refine ⟨hexByte_inj _ _ ?_, hexByte_inj _ _ ?_, hexByte_inj _ _ ?_, hexByte_inj _ _ ?_,
    hexByte_inj _ _ ?_, hexByte_inj _ _ ?_⟩ <;>
    simp only [hexByte, *]

example : (Mac.new 0x02 0xAB 0 0x7F 0x10 0xFF).display = "02:AB:00:7F:10:FF".toList := by decide

/-! ## C12 UDP header -/

/-- C12: the header the chip stores (4 address bytes, port and length big-endian) is decoded to exactly
that origin and length. -/
theorem C12_udp_header (ip : Ipv4) (port len : U16) :
    UdpHeader.fromArray ([ip.a, ip.b, ip.c, ip.d] ++ be port.toNat ++ be len.toNat) =
      some { origin := ⟨ip, port⟩, len := len.toNat } := by
  have key : ∀ v : U16, fromBeBytes (BitVec.ofNat 8 (v.toNat / 256)) (BitVec.ofNat 8 (v.toNat % 256)) = v := by
    intro v
    apply BitVec.eq_of_toNat_eq
    have h1 := C07_from_register (BitVec.ofNat 8 (v.toNat / 256)) (BitVec.ofNat 8 (v.toNat % 256))
    simp only [RetryTime.fromRegister, RetryTime.toU16] at h1
    rw [h1]
    have := v.isLt
    simp only [ofBe, BitVec.toNat_ofNat]
    omega
  simp only [be, List.cons_append, List.nil_append, UdpHeader.fromArray, key]

example : UdpHeader.fromArray [192, 168, 0, 7, 0x13, 0x88, 0, 5] =
    some ⟨⟨⟨192, 168, 0, 7⟩, 5000⟩, 5⟩ := by decide

/-! ## C13 Socket blocks -/

/-- Block number the driver uses. -/
def blockOf (s : Socket) : Kind → U8
  | .reg => s.register
  | .tx => s.txBuffer
  | .rx => s.rxBuffer

/-- C13: block numbers are the datasheet's, for all eight sockets and all kinds. -/
theorem C13_blocks_datasheet (i : Nat) (h : i < 8) (k : Kind) :
    (blockOf (Socket.new (BitVec.ofNat 8 i)) k).toNat = bsb i k ∧ bsb i k < 32 ∧
    (i, k, BitVec.ofNat 5 (bsb i k)) ∈ bsbTable := by
  have : i = 0 ∨ i = 1 ∨ i = 2 ∨ i = 3 ∨ i = 4 ∨ i = 5 ∨ i = 6 ∨ i = 7 := by omega
  rcases this with rfl | rfl | rfl | rfl | rfl | rfl | rfl | rfl <;> cases k <;> decide

/-- C13: two (socket, kind) pairs use the same block only if they are the same pair, and none uses the
common block. -/
theorem C13_blocks_disjoint (i j : Nat) (hi : i < 8) (hj : j < 8) (k l : Kind) :
    (blockOf (Socket.new (BitVec.ofNat 8 i)) k = blockOf (Socket.new (BitVec.ofNat 8 j)) l → i = j ∧ k = l) ∧
    blockOf (Socket.new (BitVec.ofNat 8 i)) k ≠ COMMON := by
  have h1 := (C13_blocks_datasheet i hi k).1
  have h2 := (C13_blocks_datasheet j hj l).1
  constructor
  · intro h
    rw [h, h2] at h1
    cases k <;> cases l <;> simp [bsb] at h1 ⊢ <;> omega
  · intro h
    rw [h] at h1
    cases k <;> simp [bsb, COMMON] at h1

/-- C13: the exported constants `register::SOCKETn*` are the same numbers. -/
theorem C13_exported_constants :
    [SOCKET0, SOCKET1, SOCKET2, SOCKET3, SOCKET4, SOCKET5, SOCKET6, SOCKET7] =
      (List.range 8).map (fun i => blockOf (Socket.new (BitVec.ofNat 8 i)) .reg) ∧
    [SOCKET0_BUFFER_TX, SOCKET1_BUFFER_TX, SOCKET2_BUFFER_TX, SOCKET3_BUFFER_TX, SOCKET4_BUFFER_TX,
      SOCKET5_BUFFER_TX, SOCKET6_BUFFER_TX, SOCKET7_BUFFER_TX] =
      (List.range 8).map (fun i => blockOf (Socket.new (BitVec.ofNat 8 i)) .tx) ∧
    [SOCKET0_BUFFER_RX, SOCKET1_BUFFER_RX, SOCKET2_BUFFER_RX, SOCKET3_BUFFER_RX, SOCKET4_BUFFER_RX,
      SOCKET5_BUFFER_RX, SOCKET6_BUFFER_RX, SOCKET7_BUFFER_RX] =
      (List.range 8).map (fun i => blockOf (Socket.new (BitVec.ofNat 8 i)) .rx) := by decide

end W5500.Props
