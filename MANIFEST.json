{
 "claims": [
  {
   "property": "C01",
   "status": "proved",
   "theorems": [
    "W5500.Props.C01_read",
    "W5500.Props.C01_write",
    "W5500.Props.C01_refinement"
   ],
   "note": "Equality of Bus implementations, so it holds for every history; any chip behaviour, transactions may fail after any number of bytes."
  },
  {
   "property": "C02",
   "status": "proved",
   "theorems": [
    "W5500.Props.C02_write",
    "W5500.Props.C02_read"
   ],
   "note": "Any SPI bus, any failing transfer; Splits states sizes, coverage, addresses and block bits."
  },
  {
   "property": "C03",
   "status": "partial",
   "theorems": [
    "W5500.Props.C03_read_partial",
    "W5500.Props.C03_in_step_iff",
    "W5500.Props.C03_refuted"
   ],
   "note": "Full refinement for lengths 0, 1, 2 and multiples of 4. False for every other length: C03_in_step_iff shows the decoder is out of step exactly then; C03_refuted gives a history with wrong data."
  },
  {
   "property": "C04",
   "status": "partial",
   "theorems": [
    "W5500.Props.C04_refuted",
    "W5500.Props.C04_no_register_written",
    "W5500.Props.C04_bytes_sent_partial"
   ],
   "note": "The claim is false for every frame: C04_refuted shows the chip decodes only reads (direction bit never set). What remains true is the chunking."
  },
  {
   "property": "C05",
   "status": "partial",
   "theorems": [
    "W5500.Props.C05_four_wire",
    "W5500.Props.C05_three_wire_partial"
   ],
   "note": "Four-wire: full. Three-wire: exact condition; panics in builds with overflow checks iff address + length >= 65536, so the claim is false there."
  },
  {
   "property": "C06",
   "status": "proved",
   "theorems": [
    "W5500.Props.C06_mode_bits",
    "W5500.Props.C06_mode_injective"
   ],
   "note": "All Mode values, all bit positions."
  },
  {
   "property": "C07",
   "status": "proved",
   "theorems": [
    "W5500.Props.C07_to_register",
    "W5500.Props.C07_from_register",
    "W5500.Props.C07_roundtrip",
    "W5500.Props.C07_roundtrip'"
   ],
   "note": "All 16-bit values and byte pairs."
  },
  {
   "property": "C08",
   "status": "partial",
   "theorems": [
    "W5500.Props.C08_millis_exact_partial",
    "W5500.Props.C08_fails",
    "W5500.Props.C08_full_false",
    "W5500.Props.C08_default"
   ],
   "note": "Exact up to 6553 ms. The full statement is false of the code: for every larger value the multiplication overflows (C08_fails, C08_full_false)."
  },
  {
   "property": "C09",
   "status": "partial",
   "theorems": [
    "W5500.Props.C09_phy_flags",
    "W5500.Props.C09_operation_mode_partial",
    "W5500.Props.C09_fails",
    "W5500.Props.C09_device"
   ],
   "note": "Flags and operation mode exact for every byte except bits 5..3 = 101, where operation_mode panics (C09_fails). C09_device: phy_config returns the fields of the chip register 0x2E."
  },
  {
   "property": "C10",
   "status": "proved",
   "theorems": [
    "W5500.Props.C10_status_decode",
    "W5500.Props.C10_status_reject",
    "W5500.Props.C10_status_roundtrip"
   ],
   "note": "All 256 bytes."
  },
  {
   "property": "C11",
   "status": "proved",
   "theorems": [
    "W5500.Props.C11_mac_roundtrip",
    "W5500.Props.C11_mac_octets_injective",
    "W5500.Props.C11_mac_display",
    "W5500.Props.C11_mac_display_injective"
   ],
   "note": "All MAC addresses."
  },
  {
   "property": "C12",
   "status": "proved",
   "theorems": [
    "W5500.Props.C12_udp_header"
   ],
   "note": "All addresses, ports, lengths."
  },
  {
   "property": "C13",
   "status": "proved",
   "theorems": [
    "W5500.Props.C13_blocks_datasheet",
    "W5500.Props.C13_blocks_disjoint",
    "W5500.Props.C13_exported_constants"
   ],
   "note": "All sockets and block kinds."
  },
  {
   "property": "C14",
   "status": "proved",
   "theorems": [
    "W5500.Props.C14_live_sockets_distinct",
    "W5500.Props.C14_index"
   ],
   "note": "Any history of the public API (Spec/Client.lean), any bus. Clients that overwrite the public field Socket::index or mix handles of two devices are outside the history model."
  },
  {
   "property": "C15",
   "status": "proved",
   "theorems": [
    "W5500.Props.C15_take_socket",
    "W5500.Props.C15_socket_calls"
   ],
   "note": "Any reachable state. Outstanding = live handles plus lost slots (ghost)."
  },
  {
   "property": "C16",
   "status": "proved",
   "theorems": [
    "W5500.Props.C16_close_result",
    "W5500.Props.C16_freed_iff",
    "W5500.Props.C16_lost_forever"
   ],
   "note": "Any reachable state, any later history."
  },
  {
   "property": "C17",
   "status": "proved",
   "theorems": [
    "W5500.Props.C17_reset"
   ],
   "note": "Any reachable state."
  },
  {
   "property": "C18",
   "status": "proved",
   "theorems": [
    "W5500.Props.C18_reactivate_state",
    "W5500.Props.C18_reactivate_erasable",
    "W5500.Props.C18_outstanding_exact",
    "W5500.Props.C18_release"
   ],
   "note": "Reactivation anywhere; with the bus left alone the pairs can be erased, with arbitrary use of the bus the allocation state is kept."
  },
  {
   "property": "C19",
   "status": "proved",
   "theorems": [
    "W5500.Props.C19_udp",
    "W5500.Props.C19_tcp",
    "W5500.Props.C19_raw",
    "W5500.Props.C19_device",
    "W5500.Props.C19_init"
   ],
   "note": "Every public bus-using operation, every bus, every failing transfer, any number of polling rounds."
  },
  {
   "property": "C20",
   "status": "proved",
   "theorems": [
    "W5500.Props.C20_isolated",
    "W5500.Props.C20_common_only"
   ],
   "note": "Per operation and for histories."
  },
  {
   "property": "C21",
   "status": "proved",
   "theorems": [
    "W5500.Props.C21_history",
    "W5500.Props.C21_init_raw",
    "W5500.Props.C21_meaning"
   ],
   "note": "All operations; C21_meaning spells out the excluded accesses."
  },
  {
   "property": "C22",
   "status": "proved",
   "theorems": [
    "W5500.Props.C22_stable",
    "W5500.Props.C22_samples",
    "W5500.Props.C22"
   ],
   "note": "C22_stable: any bus. C22_samples: every monotone counter. C22: chip model, any schedule and faults."
  },
  {
   "property": "C23",
   "status": "proved",
   "theorems": [
    "W5500.Props.C23_samples",
    "W5500.Props.C23"
   ],
   "note": "C23_samples: every monotone counter. C23: chip model, any schedule and faults."
  },
  {
   "property": "C24",
   "status": "proved",
   "theorems": [
    "W5500.Props.C24"
   ],
   "note": "Any bus; all three initialisations with the version assertion (default build)."
  },
  {
   "property": "C25",
   "status": "proved",
   "theorems": [
    "W5500.Props.C25"
   ],
   "note": "Chip model, any prior state, any schedule of events, any fault plan."
  },
  {
   "property": "C26",
   "status": "proved",
   "theorems": [
    "W5500.Props.C26",
    "W5500.Props.C26_registers"
   ],
   "note": "Equality of the two functions on any bus; C26_registers on the chip."
  },
  {
   "property": "C27",
   "status": "partial",
   "theorems": [
    "W5500.Props.C27_partial",
    "W5500.Props.C27_refuted"
   ],
   "note": "The claim is false: initialize ignores the MAC (C27_refuted). C27_partial: the register is all zero after success, for every argument."
  },
  {
   "property": "C28",
   "status": "proved",
   "theorems": [
    "W5500.Props.C28"
   ],
   "note": "Any number of failed attempts, other traffic and time in between; afterwards no refresh causes traffic on any bus."
  },
  {
   "property": "C29",
   "status": "proved",
   "theorems": [
    "W5500.Props.C29_script",
    "W5500.Props.C29"
   ],
   "note": "C29_script: exact writes on any bus. C29: resulting registers from any prior state."
  },
  {
   "property": "C30",
   "status": "proved",
   "theorems": [
    "W5500.Props.C30",
    "W5500.Props.C30_initialized"
   ],
   "note": "Any history of setters (also failing), reads, other writes, time. Mode has no getter; its register is stated instead."
  },
  {
   "property": "C31",
   "status": "partial",
   "theorems": [
    "W5500.Props.C31_connect_history_partial",
    "W5500.Props.C31_bind_script",
    "W5500.Props.C31_connect_script",
    "W5500.Props.C31_bind",
    "W5500.Props.C31_connect_partial"
   ],
   "note": "C31_bind_script/C31_connect_script: exact writes on any bus. C31_bind: full for bind. C31_connect_history_partial: all registers including the destination, in every history without interrupted connect or send_to (see C38); C31_connect_partial: any socket object, destination only when the cached one differs. The UDP status only if no status change intervenes."
  },
  {
   "property": "C32",
   "status": "partial",
   "theorems": [
    "W5500.Props.C32_refuted"
   ],
   "note": "The claim is false: C32_refuted shows the interrupt mask is 0 after every open, because the two flags are combined with AND."
  },
  {
   "property": "C33",
   "status": "proved",
   "theorems": [
    "W5500.Props.C33_default",
    "W5500.Props.C33_distinct",
    "W5500.Props.C33_tcp_script",
    "W5500.Props.C33_tcp",
    "W5500.Props.C33_history"
   ],
   "note": "Every index, every history of calls on the socket object, also failing ones."
  },
  {
   "property": "C34",
   "status": "proved",
   "theorems": [
    "W5500.Props.C34",
    "W5500.Props.C34_v4"
   ],
   "note": "Any bus, no access at all; C34_v4 shows IPv4 is not rejected."
  },
  {
   "property": "C35",
   "status": "partial",
   "theorems": [
    "W5500.Props.C35_status_partial",
    "W5500.Props.C35_destination",
    "W5500.Props.C35_full_partial",
    "W5500.Props.C35_send_to",
    "W5500.Props.C35_refuted"
   ],
   "note": "Any bus; C35_destination holds in full, the status and free space cases when the condition holds as the call starts. False for later pieces of a buffer larger than the free space: an error is returned although the first pieces were sent (C35_refuted)."
  },
  {
   "property": "C36",
   "status": "proved",
   "theorems": [
    "W5500.Props.C36_pieces",
    "W5500.Props.C36_history",
    "W5500.Props.C36_send",
    "W5500.Props.C36_send_to"
   ],
   "note": "Chip model, any history of calls, schedule and faults. C36_history covers failed calls too."
  },
  {
   "property": "C37",
   "status": "partial",
   "theorems": [
    "W5500.Props.C37_partial",
    "W5500.Props.C37_refuted",
    "W5500.Props.C37_large"
   ],
   "note": "C37_partial gives the exact number of datagrams; one iff 1 <= length <= TX size. False for empty buffers (C37_refuted) and for larger ones (C37_large)."
  },
  {
   "property": "C38",
   "status": "partial",
   "theorems": [
    "W5500.Props.C38_partial",
    "W5500.Props.C38_settled_connect",
    "W5500.Props.C38_settled_send_to",
    "W5500.Props.C38_refuted"
   ],
   "note": "Holds in every history in which no connect or send_to is interrupted between the address and the port; only a bus error can do that (C38_settled_*, C66_destination). False otherwise (C38_refuted: the next send goes to a mixed address)."
  },
  {
   "property": "C39",
   "status": "proved",
   "theorems": [
    "W5500.Props.C39"
   ],
   "note": "Chip model, any history, schedule and faults; the whole payload is in the buffer."
  },
  {
   "property": "C40",
   "status": "partial",
   "theorems": [
    "W5500.Props.C40_partial",
    "W5500.Props.C40_refuted"
   ],
   "note": "C40_partial gives the exact returned length. The claim is false (C40_refuted)."
  },
  {
   "property": "C41",
   "status": "partial",
   "theorems": [
    "W5500.Props.C41_panic_partial",
    "W5500.Props.C41_chip_partial",
    "W5500.Props.C41_refuted"
   ],
   "note": "C41_panic_partial (any bus) and C41_chip_partial characterise the panic. The claim is false (C41_refuted)."
  },
  {
   "property": "C42",
   "status": "partial",
   "theorems": [
    "W5500.Props.C42_partial",
    "W5500.Props.C42_all_removed",
    "W5500.Props.C42_single",
    "W5500.Props.C42_refuted"
   ],
   "note": "C42_partial: each at most once, in order. C42_single: true for a single queued datagram. False otherwise: C42_all_removed (universal), C42_refuted."
  },
  {
   "property": "C43",
   "status": "proved",
   "theorems": [
    "W5500.Props.C43_would_block",
    "W5500.Props.C43_before_data"
   ],
   "note": "Any bus; when exactly WouldBlock is returned, and that nothing is written before the data is read."
  },
  {
   "property": "C44",
   "status": "proved",
   "theorems": [
    "W5500.Props.C44_send",
    "W5500.Props.C44_receive",
    "W5500.Props.C44_kind"
   ],
   "note": "Any bus, status byte, buffer; the only transfer is the status read. C44_kind: the error kind PipeClosed is reported exactly if the connection is not established, and only by send and receive."
  },
  {
   "property": "C45",
   "status": "proved",
   "theorems": [
    "W5500.Props.C45",
    "W5500.Props.C45_count"
   ],
   "note": "Chip model with arbitrary schedule and failing transactions; any history since connect (TcpRun), including other traffic and calls that failed without moving the pointer. C45_count on any bus."
  },
  {
   "property": "C46",
   "status": "proved",
   "theorems": [
    "W5500.Props.C46",
    "W5500.Props.C46_buffer"
   ],
   "note": "Chip model with arbitrary schedule; C46_buffer on any bus."
  },
  {
   "property": "C47",
   "status": "partial",
   "theorems": [
    "W5500.Props.C47_partial",
    "W5500.Props.C47_ignored",
    "W5500.Props.C47_refuted"
   ],
   "note": "Holds if the RECV interrupt is pending. False in general: C47_ignored (any bus), C47_refuted (bytes stay queued after a partial read)."
  },
  {
   "property": "C48",
   "status": "partial",
   "theorems": [
    "W5500.Props.C48_kept_partial",
    "W5500.Props.C48_refuted"
   ],
   "note": "The claim is false: C48_refuted shows receive refuses in every status but ESTABLISHED, for every queue content. C48_kept_partial: the refusal loses nothing, the queue and the buffer stay."
  },
  {
   "property": "C49",
   "status": "partial",
   "theorems": [
    "W5500.Props.C49_partial",
    "W5500.Props.C49_refuted"
   ],
   "note": "Exact form of success on any bus. False if the status becomes CLOSED while waiting (C49_refuted)."
  },
  {
   "property": "C50",
   "status": "partial",
   "theorems": [
    "W5500.Props.C50_partial",
    "W5500.Props.C50_refuted"
   ],
   "note": "Returns once ESTABLISHED or CLOSED is reported, any returning bus. False for every other final status (C50_refuted, for every such status and any number of rounds)."
  },
  {
   "property": "C51",
   "status": "partial",
   "theorems": [
    "W5500.Props.C51_partial",
    "W5500.Props.C51_refuted"
   ],
   "note": "Returns once SENDOK is reported, any returning bus. False after a timeout (C51_refuted, any number of rounds)."
  },
  {
   "property": "C52",
   "status": "proved",
   "theorems": [
    "W5500.Props.C52",
    "W5500.Props.C52_refused"
   ],
   "note": "Any bus, every CONNECT command in the traffic, however the call ends; C52_refused for non-TCP states."
  },
  {
   "property": "C53",
   "status": "partial",
   "theorems": [
    "W5500.Props.C53_partial",
    "W5500.Props.C53_refuted"
   ],
   "note": "Holds if the failure left the TX write pointer register unchanged. False otherwise (C53_refuted)."
  },
  {
   "property": "C54",
   "status": "partial",
   "theorems": [
    "W5500.Props.C54_partial",
    "W5500.Props.C54_refuted"
   ],
   "note": "Holds if the failure left the RX read pointer register unchanged. False otherwise (C54_refuted)."
  },
  {
   "property": "C55",
   "status": "proved",
   "theorems": [
    "W5500.Props.C55_unambiguous",
    "W5500.Props.C55_history",
    "W5500.Props.C55_call"
   ],
   "note": "Chip model, any history of calls, schedule and faults; a read that fails after it moved Sn_RX_RD ends the history (an example shows that a frame is lost then)."
  },
  {
   "property": "C56",
   "status": "proved",
   "theorems": [
    "W5500.Props.C56",
    "W5500.Props.C56_length",
    "W5500.Props.C56_buffer",
    "W5500.Props.C56_panic"
   ],
   "note": "Any bus. C56: exactly which accesses a successful call makes. C56_length, C56_buffer: the buffer, also for failing calls. C56_panic: when exactly it panics."
  },
  {
   "property": "C57",
   "status": "proved",
   "theorems": [
    "W5500.Props.C57_bus",
    "W5500.Props.C57_chip",
    "W5500.Props.C57_failed",
    "W5500.Props.C57_history"
   ],
   "note": "C57_bus: any bus. C57_chip, C57_failed, C57_history: chip model, any schedule and faults."
  },
  {
   "property": "C58",
   "status": "partial",
   "theorems": [
    "W5500.Props.C58_partial",
    "W5500.Props.C58_never_ok",
    "W5500.Props.C58_refuted"
   ],
   "note": "C58_partial: an oversized frame is never transmitted. The claim is false: SEND is issued (C57_bus), the call never returns Ok (C58_never_ok), and without bus errors it never returns (C58_refuted)."
  },
  {
   "property": "C59",
   "status": "proved",
   "theorems": [
    "W5500.Props.C59_script",
    "W5500.Props.C59"
   ],
   "note": "C59_script: exact writes on any bus. C59: resulting registers."
  },
  {
   "property": "C60",
   "status": "proved",
   "theorems": [
    "W5500.Props.C60_udp_send",
    "W5500.Props.C60_udp_send_to",
    "W5500.Props.C60_tcp_send",
    "W5500.Props.C60_raw_write_frame",
    "W5500.Props.C60_no_other_send"
   ],
   "note": "Each SEND command directly follows pointer read, payload write at the pointer, pointer update."
  },
  {
   "property": "C61",
   "status": "proved",
   "theorems": [
    "W5500.Props.C61_tcp",
    "W5500.Props.C61_udp"
   ],
   "note": "Chip model, any client history, schedule and faults. C61_tcp: as C45/C46; C61_udp: as C36/C42 (datagrams of one receive may be lost, see C42); histories in which a failed receive moved Sn_RX_RD end there."
  },
  {
   "property": "C62",
   "status": "proved",
   "theorems": [
    "W5500.Props.C62_advanced",
    "W5500.Props.C62_dhcp",
    "W5500.Props.C62_sizes"
   ],
   "note": "Chip model, any initial state, schedule and faults. C62_sizes links it to the hypothesis of C61."
  },
  {
   "property": "C63",
   "status": "proved",
   "theorems": [
    "W5500.Props.C63",
    "W5500.Props.C63_init",
    "W5500.Props.C63_calm"
   ],
   "note": "Any bus with Calm transfers (C63_calm: every four-wire connection to any chip), any client history."
  },
  {
   "property": "C64",
   "status": "proved",
   "theorems": [
    "W5500.Props.C64_closed",
    "W5500.Props.C64"
   ],
   "note": "C64_closed: one call. C64: any client program. Chip model, any schedule and faults."
  },
  {
   "property": "C65",
   "status": "partial",
   "theorems": [
    "W5500.Props.C65_refuted",
    "W5500.Props.C65_partial",
    "W5500.Props.C65_example"
   ],
   "note": "The claim is false whenever the socket object still holds the same destination (C65_refuted, universal; C65_example). C65_partial: true otherwise."
  },
  {
   "property": "C66",
   "status": "proved",
   "theorems": [
    "W5500.Props.C66_tcp_send",
    "W5500.Props.C66_tcp_receive",
    "W5500.Props.C66_tcp",
    "W5500.Props.C66_udp_send",
    "W5500.Props.C66_udp_send_to",
    "W5500.Props.C66_udp_receive",
    "W5500.Props.C66_udp",
    "W5500.Props.C66_destination"
   ],
   "note": "Chip model, any history without bus errors, schedule and faults. C66_tcp_send, C66_tcp_receive: any bus."
  },
  {
   "property": "C67",
   "status": "proved",
   "theorems": [
    "W5500.Props.C67_rounds",
    "W5500.Props.C67_tcp",
    "W5500.Props.C67_udp",
    "W5500.Props.C67_raw"
   ],
   "note": "Chip model, any state, schedule and faults. C67_rounds (any bus): the number of rounds does not influence the outcome of calls that end."
  },
  {
   "property": "C68",
   "status": "proved",
   "theorems": [
    "W5500.Props.C68_tcp_connect",
    "W5500.Props.C68_tcp_send",
    "W5500.Props.C68_udp_send",
    "W5500.Props.C68_udp_send_to",
    "W5500.Props.C68_raw_write"
   ],
   "note": "Chip model, any faults; fairness assumptions Emitting, Confirming, Lossless, Answering (Spec/Returns.lean). Without them the calls may not return: C50_refuted, C51_refuted, C58_refuted."
  },
  {
   "property": "C69",
   "status": "partial",
   "theorems": [
    "W5500.Props.C69_send_partial",
    "W5500.Props.C69_send_to_partial",
    "W5500.Props.C69_ok_partial",
    "W5500.Props.C69_refuted"
   ],
   "note": "C69_send_partial, C69_send_to_partial, C69_ok_partial: true on chips that raise SENDOK or TIMEOUT at once (Prompt), for a socket opened with none of them set, any history without bus errors, schedule and faults. False of chips that raise them later (C69_refuted): the crate takes neither flag for success."
  },
  {
   "property": "C70",
   "status": "proved",
   "theorems": [
    "W5500.Props.C70_udp_send",
    "W5500.Props.C70_udp_send_to",
    "W5500.Props.C70_udp_receive",
    "W5500.Props.C70_udp_open",
    "W5500.Props.C70_set_port",
    "W5500.Props.C70_close",
    "W5500.Props.C70_tcp_connect",
    "W5500.Props.C70_tcp_send",
    "W5500.Props.C70_tcp_receive",
    "W5500.Props.C70_v6"
   ],
   "note": "Any bus; evidence stated per error kind in Spec/Blame.lean as a suffix of the traffic of the call. C70_close, C70_set_port: close and set_port fail only with a failed transfer."
  },
  {
   "property": "C71",
   "status": "proved",
   "theorems": [
    "W5500.Props.C71_history",
    "W5500.Props.C71_init_raw",
    "W5500.Props.C71_commands"
   ],
   "note": "Any bus and fuel; histories with unchanged reactivation; values listed in Spec/Access.lean (sockValue, commonValue)."
  },
  {
   "property": "C72",
   "status": "proved",
   "theorems": [
    "W5500.Props.C72_tcp",
    "W5500.Props.C72_tcp_all",
    "W5500.Props.C72_udp",
    "W5500.Props.C72_udp_whole",
    "W5500.Props.C72_udp_order",
    "W5500.Props.C72_raw",
    "W5500.Props.C72_raw_order"
   ],
   "note": "Chip model at both ends; the network is a hypothesis (Stream, Unforged, Orderly in Spec/EndToEnd.lean). Demonstrated with an echoing and a talking/hearing pair. C72_raw, C72_raw_order: the same for MACRAW: frames a program receives were sent by write_frame of the peer, but for padding by the wire (WireUnforged), and in order (WireOrderly; frames are told apart by their source address)."
  },
  {
   "property": "C73",
   "status": "proved",
   "theorems": [
    "W5500.Props.C73",
    "W5500.Props.C73_init",
    "W5500.Props.C73_raw",
    "W5500.Props.C73_observed"
   ],
   "note": "Any two buses, any relation; Op.AllLike relates the operation lists (other uses of the bus between calls must keep the states related)."
  },
  {
   "property": "C74",
   "status": "proved",
   "theorems": [
    "W5500.Props.C74",
    "W5500.Props.C74_traffic",
    "W5500.Props.C74_raw"
   ],
   "note": "Chip model, any timing and faults. C74 for results, C74_traffic for the transfers, C74_raw for write_frame."
  },
  {
   "property": "C75",
   "status": "proved",
   "theorems": [
    "W5500.Props.C75",
    "W5500.Props.C75_interleaved",
    "W5500.Props.C75_chip"
   ],
   "note": "Hypothesis on the bus: Independent for the blocks of the eight sockets (Spec/Independent.lean), met by the chip model while nothing happens by itself and no transfer fails (C75_chip), and by sockets behind separate buses."
  },
  {
   "property": "C76",
   "status": "proved",
   "theorems": [
    "W5500.Props.C76_udp_send",
    "W5500.Props.C76_udp_send_to",
    "W5500.Props.C76_udp_sends",
    "W5500.Props.C76_udp_connect",
    "W5500.Props.C76_udp_bind",
    "W5500.Props.C76_udp_session",
    "W5500.Props.C76_udp_receive",
    "W5500.Props.C76_tcp_connect",
    "W5500.Props.C76_tcp_send",
    "W5500.Props.C76_tcp_receive",
    "W5500.Props.C76_raw_write",
    "W5500.Props.C76_raw_read",
    "W5500.Props.C76_plain",
    "W5500.Props.C76_init"
   ],
   "note": "Chip model without faults; hypotheses in Spec/Success.lean and Spec/Returns.lean (StatusIn, Emitting, Confirming, Lossless, Answering, NoTimeout). C76_udp_session from power-up; C76_plain and C76_init on any bus that does not fail."
  },
  {
   "property": "C77",
   "status": "partial",
   "theorems": [
    "W5500.Props.C77_udp_unannounced",
    "W5500.Props.C77_tcp_unannounced",
    "W5500.Props.C77_udp_deaf",
    "W5500.Props.C77_tcp_deaf",
    "W5500.Props.C77_udp_partial",
    "W5500.Props.C77_tcp_partial",
    "W5500.Props.C77_refuted",
    "W5500.Props.C77_tcp_refuted",
    "W5500.Props.C77_udp_window_partial",
    "W5500.Props.C77_tcp_window_partial"
   ],
   "note": "False of the code: RECV is cleared after the RECV command, and after reading only a part. C77_udp_partial, C77_tcp_partial: it holds if nothing arrives during the call (and, TCP, the buffer was not filled). C77_*_unannounced and C77_*_deaf: what the code does instead, for every chip state; C77_refuted and C77_tcp_refuted: stuck for any number of later calls. C77_*_window_partial bound the miss: what is left was received in the last few SPI bytes of the call."
  },
  {
   "property": "C78",
   "status": "partial",
   "theorems": [
    "W5500.Props.C78_partial",
    "W5500.Props.C78_cleared",
    "W5500.Props.C78_refuted"
   ],
   "note": "False of the code: SENDOK is not cleared before SEND. C78_partial: holds for a call that finds SENDOK clear and meets no SENDOK before it gives SEND; C78_cleared: which every call that returned Ok leaves behind. C78_refuted: after a failed acknowledgement the next call returns Ok with its data not transmitted."
  },
  {
   "property": "C79",
   "status": "partial",
   "theorems": [
    "W5500.Props.C79_tcp",
    "W5500.Props.C79_raw",
    "W5500.Props.C79_udp_partial",
    "W5500.Props.C79_udp_stored",
    "W5500.Props.C79_refuted"
   ],
   "note": "False of the code for UDP: read_length is the maximum of buffer and payload length, so stale RX memory (of an earlier owner of the socket) is handed out: C79_refuted; C79_udp_stored: exactly what is stored, if nothing arrives meanwhile. C79_tcp and C79_raw: it holds for TCP and MACRAW. C79_udp_partial: it holds for UDP if the buffer is exactly as long as the payload."
  },
  {
   "property": "C80",
   "status": "proved",
   "theorems": [
    "W5500.Props.C80_meters",
    "W5500.Props.C80_tcp",
    "W5500.Props.C80_udp",
    "W5500.Props.C80_raw",
    "W5500.Props.C80_init",
    "W5500.Props.C80_plain",
    "W5500.Props.C80_receive"
   ],
   "note": "Any bus with a meter on it; instances: an observer on the wire, the counters of the chip model. Bounds of waiting calls are in terms of the number of polling rounds (fuel); C80_receive needs none. Bounds shown to be attained."
  },
  {
   "property": "C81",
   "status": "partial",
   "theorems": [
    "W5500.Props.C81_send_refuted",
    "W5500.Props.C81_send_ok",
    "W5500.Props.C81_receive_refuted",
    "W5500.Props.C81_partial"
   ],
   "note": "False of the code, on every bus: C81_send_refuted (send of an empty buffer writes nothing, however it ends) and C81_send_ok (yet it returns Ok); C81_receive_refuted (no receive call ever reports length 0). C81_partial: an empty datagram handed over has the right sender."
  },
  {
   "property": "C82",
   "status": "partial",
   "theorems": [
    "W5500.Props.C82_partial",
    "W5500.Props.C82_manual_partial",
    "W5500.Props.C82_initialize_partial",
    "W5500.Props.C82_refuted",
    "W5500.Props.C82_dead",
    "W5500.Props.C82_manual_dead",
    "W5500.Props.C82_stray"
   ],
   "note": "Holds over four wires (C82_partial, with every other register at its reset value; C82_initialize_partial: the same for initialize, which does not write the MAC address, see C27). False over three wires: C82_refuted (initialize returns Ok, nothing written, for every chip and argument), C82_dead (third gateway byte a multiple of 8: nothing is ever written again, whatever frames follow), C82_stray (third gateway byte 4 mod 8: the bytes of the settings frames are written to a block and address made of gateway bytes). C82_manual_partial and C82_manual_dead: the same for initialize_manual."
  },
  {
   "property": "C83",
   "status": "partial",
   "theorems": [
    "W5500.Props.C83_partial",
    "W5500.Props.C83_tcp",
    "W5500.Props.C83_refuted"
   ],
   "note": "Holds for UDP (C83_partial). False for TCP: C83_refuted (Ok(0) whenever the receive flag is clear, on every bus); C83_tcp: when exactly Ok(0) is returned."
  },
  {
   "property": "C84",
   "status": "proved",
   "theorems": [
    "W5500.Props.C84_told",
    "W5500.Props.C84_send",
    "W5500.Props.C84_send_to",
    "W5500.Props.C84_after_bus_error"
   ],
   "note": "C84_told: object and registers hold what was last named; C84_send, C84_send_to: what the packets then carry. C84_after_bus_error shows that the condition on bus errors is needed."
  },
  {
   "property": "C85",
   "status": "proved",
   "theorems": [
    "W5500.Props.C85",
    "W5500.Props.C85_boot",
    "W5500.Props.C85_macraw",
    "W5500.Props.C85_tcp"
   ],
   "note": "C85: programs of calls; C85_boot: with initialisation; C85_macraw: raw device; C85_tcp: an instance, the byte streams of a TCP connection."
  },
  {
   "property": "C86",
   "status": "partial",
   "theorems": [
    "W5500.Props.C86_never_polled",
    "W5500.Props.C86_partial",
    "W5500.Props.C86_refuted"
   ],
   "note": "False of the code: C86_never_polled (no history of calls ever reads Sn_CR, on any bus) and C86_refuted (a chip that delays RECV beyond the next receive call: the call returns three bytes nobody sent). C86_partial: if the chip takes up commands by the next access to the socket, Sn_CR is always 0; then C85 applies."
  },
  {
   "property": "C87",
   "status": "proved",
   "theorems": [
    "W5500.Props.C87_addresses",
    "W5500.Props.C87_interrupts",
    "W5500.Props.C87_commands",
    "W5500.Props.C87_status",
    "W5500.Props.C87_phy"
   ],
   "note": "C87_addresses, C87_interrupts, C87_commands, C87_status, C87_phy."
  },
  {
   "property": "C88",
   "status": "partial",
   "theorems": [
    "W5500.Props.C88_partial",
    "W5500.Props.C88_refuted"
   ],
   "note": "C88_partial: for fault plans in which no transaction breaks off between the two bytes of a register (Whole). C88_refuted: after a torn write of Sn_TX_WR the next send commits 255 bytes of stale TX memory."
  },
  {
   "property": "C89",
   "status": "partial",
   "theorems": [
    "W5500.Props.C89_refuted",
    "W5500.Props.C89_partial",
    "W5500.Props.C89_lost"
   ],
   "note": "C89_refuted: on no bus does any history issue DISCON. C89_lost: send and close return Ok and the byte is never transmitted. C89_partial: nothing is lost if SENDOK is sincere, not raised before SEND, and clear when send starts."
  },
  {
   "property": "C90",
   "status": "partial",
   "theorems": [
    "W5500.Props.C90_udp_partial",
    "W5500.Props.C90_raw_partial",
    "W5500.Props.C90_udp_refuted",
    "W5500.Props.C90_raw_refuted"
   ],
   "note": "C90_udp_refuted: a send_to(A) whose SEND command fails on the bus, then send_to(B): B receives both messages in one datagram. C90_raw_refuted: two frames leave glued together as one. C90_udp_partial, C90_raw_partial: with no transaction breaking off between the two bytes of a register, the data on the wire is, in order, that of the calls, and nothing else."
  },
  {
   "property": "C91",
   "status": "partial",
   "theorems": [
    "W5500.Props.C91_partial",
    "W5500.Props.C91_renumber_refuted",
    "W5500.Props.C91_renew_refuted",
    "W5500.Props.C91_close_refuted",
    "W5500.Props.C91_panic"
   ],
   "note": "False of the code: C91_renumber_refuted (set index, release: a slot in use is handed out again, from every state), C91_renew_refuted (release and initialise again while holding a handle), C91_close_refuted (closing a kept handle frees the slot of the new one), C91_panic (index of 8 or more). C91_partial: it holds while no renumbered, kept or foreign handle is closed or released."
  },
  {
   "property": "C92",
   "status": "partial",
   "theorems": [
    "W5500.Props.C92_partial",
    "W5500.Props.C92_manual_partial",
    "W5500.Props.C92_refuted"
   ],
   "note": "C92_partial: any program without reset_device. C92_refuted: after a successful reset_device all settings are 0 for good, whatever the client does with the device. C92_manual_partial: the same after initialize_manual."
  },
  {
   "property": "C93",
   "status": "proved",
   "theorems": [
    "W5500.Props.C93",
    "W5500.Props.C93_one_frame",
    "W5500.Props.C93_late_clear"
   ],
   "note": "Frames without a single byte are excluded (read_frame cannot tell them from nothing). C93_one_frame, C93_late_clear: both parts of the protocol (read until 0; clear before that) are needed: without, a frame waits and the pin is quiet."
  },
  {
   "property": "C94",
   "status": "proved",
   "theorems": [
    "W5500.Props.C94",
    "W5500.Props.C94_raw"
   ],
   "note": "C94_raw: MACRAW write_frame is the exception, its first transfer clears SENDOK unseen. Opening a socket clears all interrupts, too (by design)."
  },
  {
   "property": "C95",
   "status": "proved",
   "theorems": [
    "W5500.Props.C95",
    "W5500.Props.C95_stalled"
   ],
   "note": "C95_stalled: the limit. send never reports that it would block: with a full TX buffer it returns Ok(0)."
  },
  {
   "property": "C96",
   "status": "partial",
   "theorems": [
    "W5500.Props.C96_jam",
    "W5500.Props.C96_partial",
    "W5500.Props.C96_paced",
    "W5500.Props.C96_refuted"
   ],
   "note": "False: C96_refuted reaches a connection whose RX buffer is full and unannounced; C96_jam: from there no receive call brings a byte whatever the peer sends. C96_partial is a dichotomy: the loop succeeds with exactly the next bytes, or it runs into that state, and then the RX buffer was filled within a few SPI bytes. C96_paced: at a slower pace it succeeds. Missing: that it does so at every pace."
  },
  {
   "property": "C97",
   "status": "partial",
   "theorems": [
    "W5500.Props.C97_raw",
    "W5500.Props.C97_jam",
    "W5500.Props.C97_udp_partial",
    "W5500.Props.C97_udp_exact",
    "W5500.Props.C97_refuted"
   ],
   "note": "MACRAW: C97_raw proves it in full. UDP: false, C97_refuted; C97_jam: in the state reached there no receive call delivers anything. C97_udp_partial: the loop ends if something waits and is announced, or the RX buffer has room for the largest datagram that comes. C97_udp_exact: it ends exactly if something waits and is announced, or a datagram comes that fits beside what waits (if RECV is raised for packets only). Missing because false of the code: the other states, which C97_refuted reaches."
  },
  {
   "property": "C98",
   "status": "proved",
   "theorems": [
    "W5500.Props.C98_tcp",
    "W5500.Props.C98_udp",
    "W5500.Props.C98_raw"
   ],
   "note": "During the opening call itself, data committed before may still leave (the example shows it); the crate cannot prevent this."
  },
  {
   "property": "C99",
   "status": "partial",
   "theorems": [
    "W5500.Props.C99_past",
    "W5500.Props.C99_udp",
    "W5500.Props.C99_udp_partial",
    "W5500.Props.C99_udp_refuted",
    "W5500.Props.C99_tcp",
    "W5500.Props.C99_init",
    "W5500.Props.C99_raw"
   ],
   "note": "TCP, MACRAW and initialisation: proved in full. UDP: C99_udp is the exact answer; what fails is that a socket object whose remembered destination differs from the registers of the chip (after a send_to or connect that failed half-way) is not repaired by opening it again with connect to the remembered address (C99_udp_refuted). C99_udp_partial excludes this state."
  },
  {
   "property": "C100",
   "status": "partial",
   "theorems": [
    "W5500.Props.C100_set",
    "W5500.Props.C100_get",
    "W5500.Props.C100_has_interrupt",
    "W5500.Props.C100_chip_set",
    "W5500.Props.C100_pointers_partial",
    "W5500.Props.C100_has_interrupt_chip",
    "W5500.Props.C100_reset_interrupt_chip",
    "W5500.Props.C100_tx_read_ignored",
    "W5500.Props.C100_refuted"
   ],
   "note": "Proved for every accessor but one: the transmit read pointer is read-only in the chip, so set_tx_read_pointer has no effect (C100_tx_read_ignored) and the getter does not return what was set (C100_refuted). C100_pointers_partial covers the two other pointers."
  },
  {
   "property": "C101",
   "status": "partial",
   "theorems": [
    "W5500.Props.C101_skip",
    "W5500.Props.C101_read_partial",
    "W5500.Props.C101_read_upto",
    "W5500.Props.C101_refuted",
    "W5500.Props.C101_write",
    "W5500.Props.C101_session_partial",
    "W5500.Props.C101_transmit"
   ],
   "note": "False for RxCursor::read with a buffer of 65536 bytes or more: the length is cut to 16 bits, so nothing, or too little, is read (C101_refuted; the crate itself never does this). Everything else is proved: C101_skip, C101_read_partial (smaller buffers), C101_read_upto and C101_write for any bus, C101_session_partial and C101_transmit for any list of calls on the chip."
  },
  {
   "property": "C102",
   "status": "partial",
   "theorems": [
    "W5500.Props.C102_ignored",
    "W5500.Props.C102_refuted",
    "W5500.Props.C102_partial"
   ],
   "note": "False: receive never looks at the destination (C102_ignored, any bus), so whenever the oldest queued datagram is from somebody else and fits, receive hands it out and drops everything queued behind it, including datagrams of the peer (C102_refuted, all states). Proved: the origin in the result can be relied on, that is, a program that leaves out the results of other origins is left with datagrams of its peer, each once and in order (C102_partial). Missing: the filter in the driver, and that nothing of the peer is lost."
  },
  {
   "property": "C103",
   "status": "partial",
   "theorems": [
    "W5500.Props.C103_partial",
    "W5500.Props.C103_refuted",
    "W5500.Props.C103_new_socket"
   ],
   "note": "False of connections made one after the other: C103_refuted (a socket connects from 49849 plus its number every time) and C103_new_socket (closing and asking for a new socket gives the same one whenever the lower ones are in use). C103_partial: sockets held at the same time connect from different ports."
  },
  {
   "property": "C104",
   "status": "partial",
   "theorems": [
    "W5500.Props.C104_partial",
    "W5500.Props.C104_refuted_read",
    "W5500.Props.C104_refuted_write",
    "W5500.Props.C104_refuted_destination"
   ],
   "note": "C104_partial: every TCP and UDP send and receive, in any list of calls, answers NotConnected or SocketNotOpen (or the bus error), nothing is transmitted or received. False of MACRAW devices: C104_refuted_read (read_frame keeps returning Ok(0)), C104_refuted_write (write_frame never returns). False of UDP sockets opened again: C104_refuted_destination (the remembered destination is not written again, datagrams go to 0.0.0.0)."
  },
  {
   "property": "C105",
   "status": "partial",
   "theorems": [
    "W5500.Props.C105_partial",
    "W5500.Props.C105_open",
    "W5500.Props.C105_refuted",
    "W5500.Props.C105_refuted_chip",
    "W5500.Props.C105_refuted_default"
   ],
   "note": "C105_partial: it holds if the ports named in bind and set_port are different and none is one of the eight defaults 49849..49856. C105_open: on any bus, when bind or connect sends OPEN, Sn_PORT was last set to the port of the object. False in general: C105_refuted, C105_refuted_chip (bind gives two sockets the same port and returns Ok), C105_refuted_default (a port named once may be the default of a socket that is not bound)."
  },
  {
   "property": "C106",
   "status": "partial",
   "theorems": [
    "W5500.Props.C106_partial",
    "W5500.Props.C106_refuted_hang",
    "W5500.Props.C106_refuted_send",
    "W5500.Props.C106_refuted_receive"
   ],
   "note": "C106_partial: after a call during which the chip was reset, once or more often, the socket is closed, and every later send or receive ends with \"not open\" (or a bus error if transfers fail), transmitting and receiving nothing, also if the chip is reset again. The call itself need not tell: C106_refuted_hang (TCP send never returns if the reset falls right after the status check), C106_refuted_send (UDP send returns Ok, nothing left), C106_refuted_receive (TCP receive returns Ok with bytes the peer did not send)."
  },
  {
   "property": "C107",
   "status": "proved",
   "theorems": [
    "W5500.Props.C107",
    "W5500.Props.C107_chip",
    "W5500.Props.C107_raw"
   ],
   "note": "C107: the traffic of every call is Fitting, on any bus. C107_chip: on a chip that ignores commands, over any calls on any sockets, no command is ignored while the status is what the driver last read or brought about. MACRAW is not part of the claim: C107_raw shows that write_frame gives SEND without having looked."
  },
  {
   "property": "C108",
   "status": "partial",
   "theorems": [
    "W5500.Props.C108_partial",
    "W5500.Props.C108_refuted_connect",
    "W5500.Props.C108_refuted_send",
    "W5500.Props.C108_refuted_hang",
    "W5500.Props.C108_refuted_wait",
    "W5500.Props.C108_refuted_receive",
    "W5500.Props.C108_refuted_udp",
    "W5500.Props.C108_refuted_raw"
   ],
   "note": "C108_partial: the calls after the one during which the chip stops: send, send_to and receive fail at once, for every byte that is no status of an open socket, as do the initialisations that look at the version, and TCP connect if the byte is no status at all (0xFF). Missing because false of the code: TCP connect returns Ok if 0x00 is read (C108_refuted_connect); TCP send and receive during which the chip stops return Ok (C108_refuted_send, C108_refuted_receive) or never return (C108_refuted_hang), and so connect (C108_refuted_wait); UDP connect and bind read nothing (C108_refuted_udp); initialize_macraw does not look at the version, read_frame and write_frame not at the status (C108_refuted_raw)."
  },
  {
   "property": "C109",
   "status": "partial",
   "theorems": [
    "W5500.Props.C109_partial",
    "W5500.Props.C109_refuted"
   ],
   "note": "C109_partial: connect returns Ok; after any number of rounds that left nothing behind, if a datagram comes that fits, the next round returns Ok with any fuel above a bound, the question has left for the address, and the oldest stored datagram is delivered; it is the answer if nothing else came. The wait ends even if the answer comes while the question is sent. Missing because false of the code: further datagrams. C109_refuted: the first answer comes a second time while receive delivers it; it is stored, but its interrupt is cleared; the next round returns it instead of the second answer, which is discarded, and no later call delivers it."
  },
  {
   "property": "C110",
   "status": "partial",
   "theorems": [
    "W5500.Props.C110_partial",
    "W5500.Props.C110_deaf",
    "W5500.Props.C110_refuted"
   ],
   "note": "C110_partial: after any number of rounds that left nothing behind, if a response comes and its first piece is at least as long as wanted, the next round returns Ok with any fuel above a bound; the whole request is accepted, the bytes delivered are the next ones of the stream, and exactly the response if nothing else came. The response may come while the request is still being sent. C110_deaf: if a receive of the loop brings too few bytes and nothing comes after it, the loop never ends, even if the rest came during the call. Missing because false of the code: responses in several pieces. C110_refuted: the second piece comes while receive is busy with the first, so it is stored but not announced, and the client waits forever on an established connection. See C116 and C117 for pieces that are read."
  },
  {
   "property": "C111",
   "status": "proved",
   "theorems": [
    "W5500.Props.C111",
    "W5500.Props.C111_served"
   ],
   "note": "C111: from any opened socket on, over any rounds that returned Ok, with any schedule and faults. C111_served: one round ends with Ok after any history, if a datagram comes and something waits and is announced or there is room for it (without this the wait may not end, see C97). What the answer is computed from is the subject of C112."
  },
  {
   "property": "C112",
   "status": "partial",
   "theorems": [
    "W5500.Props.C112_partial",
    "W5500.Props.C112_refuted"
   ],
   "note": "C112_partial: what is sent back, to where it came from, is the payload followed by extra bytes; there are none iff the buffer is exactly as long as the payload. Missing because false of the code: that there are none. C112_refuted: two requests come, and the server sends to client A, behind its two bytes, the address, port and data of client B."
  },
  {
   "property": "C113",
   "status": "proved",
   "theorems": [
    "W5500.Props.C113_round",
    "W5500.Props.C113"
   ],
   "note": "C113_round is one round, C113 any number. The answers must have 1 to 16384 bytes because write_frame hangs on others (C58)."
  },
  {
   "property": "C114",
   "status": "partial",
   "theorems": [
    "W5500.Props.C114_round",
    "W5500.Props.C114_partial",
    "W5500.Props.C114_paced",
    "W5500.Props.C114_refuted"
   ],
   "note": "C114_round says exactly when a round ends. C114_partial: any number of rounds end, or the server is stuck with a request in the RX buffer that is not announced, and nothing that comes fits beside it. Missing is that this does not happen, and it does: C114_refuted. C114_paced: it does not if requests come slowly enough, namely if those that come in any stretch of buffer length + 18 SPI bytes leave room for one more in the RX buffer."
  },
  {
   "property": "C115",
   "status": "proved",
   "theorems": [
    "W5500.Props.C115_one",
    "W5500.Props.C115"
   ],
   "note": "C115_one is one datagram: when the blocking receive has ended, at most buf.len() + 20 SPI bytes after the datagram came, nothing waits or is announced. C115 is any number of them, by induction over the timetable. The distance is needed: C42, C97."
  },
  {
   "property": "C116",
   "status": "proved",
   "theorems": [
    "W5500.Props.C116"
   ],
   "note": "By induction over the timetable. Every poll before a piece comes finds nothing, the first one after it takes all of it and leaves nothing announced (piece_read). The distance is needed: C96_refuted, C110_refuted."
  },
  {
   "property": "C117",
   "status": "proved",
   "theorems": [
    "W5500.Props.C117",
    "W5500.Props.C117_request"
   ],
   "note": "C117: the reading loop from any state. C117_request: the request and then the loop. Invariant: everything that came since the start is stored, because it fits (Gathers). A poll that begins before the pause ends in it and leaves nothing announced; from then on every poll finds nothing until the last piece, and the first one after it takes all that is left. The pause is needed: C96_refuted, C110_refuted."
  },
  {
   "property": "C118",
   "status": "proved",
   "theorems": [
    "W5500.Props.C118_tcp_connect",
    "W5500.Props.C118_tcp_send",
    "W5500.Props.C118_raw_write",
    "W5500.Props.C118_udp_send",
    "W5500.Props.C118_udp_send_to"
   ],
   "note": "The bounds are on the clock of the chip, which counts the bytes of all transfers, also of failed ones. UDP: C118_udp_send and C118_udp_send_to, after any calls on an opened socket. TCP and MACRAW: C118_tcp_connect, C118_tcp_send and C118_raw_write, which also say how many rounds of waiting are enough."
  },
  {
   "property": "C119",
   "status": "proved",
   "theorems": [
    "W5500.Props.C119_round",
    "W5500.Props.C119"
   ],
   "note": "C119_round: one request. C119: a timetable of them. Beside C114_paced, which says that the server goes on: here no request is lost. The distance is needed: a request that comes while another is being read may be lost (C42, C77)."
  },
  {
   "property": "C120",
   "status": "proved",
   "theorems": [
    "W5500.Props.C120",
    "W5500.Props.C120_turns"
   ],
   "note": "C120: one socket. C120_turns: several in turn. Beside C115 and C119, whose programs wait with nb::block! on one socket, the program does not wait here. The distance is needed: a datagram that comes while another waits or is being read may be lost (C42, C77)."
  },
  {
   "property": "C121",
   "status": "proved",
   "theorems": [
    "W5500.Props.C121",
    "W5500.Props.C121_call",
    "W5500.Props.C121_collect",
    "W5500.Props.C121_caught_up"
   ],
   "note": "C121: whatever the program does in the meantime. C121_call: the time that a call takes. C121_collect: a program that only reads. C121_caught_up: what it means that a call returns 0. Frames that are longer than the program's buffer are cut off, as in C55."
  },
  {
   "property": "C122",
   "status": "proved",
   "theorems": [
    "W5500.Props.C122"
   ],
   "note": "Beside C113, whose program waits for each frame and which says nothing about frames that find no room, no frame is lost here. A frame that is longer than the buffer is answered as far as the buffer holds it."
  },
  {
   "property": "C123",
   "status": "proved",
   "theorems": [
    "W5500.Props.C123",
    "W5500.Props.C123_answers"
   ],
   "note": "C123: any program that reads often enough. C123_answers: the program of C122. Time is counted in SPI data bytes."
  },
  {
   "property": "C124",
   "status": "proved",
   "theorems": [
    "W5500.Props.C124",
    "W5500.Props.C124_gather"
   ],
   "note": "C124: any program that looks often enough. C124_gather: a whole program that only receives. Time is counted in SPI data bytes."
  },
  {
   "property": "C125",
   "status": "proved",
   "theorems": [
    "W5500.Props.C125"
   ],
   "note": "C125: the pieces are those of C124. Time is counted in SPI data bytes."
  },
  {
   "property": "C126",
   "status": "proved",
   "theorems": [
    "W5500.Props.C126"
   ],
   "note": "C126: the datagrams are those of C120, the pieces those of C124, and the time of serving a socket that of C119 and C125. Time is counted in SPI data bytes."
  },
  {
   "property": "C127",
   "status": "proved",
   "theorems": [
    "W5500.Props.C127",
    "W5500.Props.C127_boot",
    "W5500.Props.C127_macraw",
    "W5500.Props.C127_strategy"
   ],
   "note": "C127: the plans say, for every SPI data byte, what happens on the network, and for every transaction whether it fails. C85 compares two plans which differ in time but not in order; here the plans are the same while the run lasts."
  },
  {
   "property": "C128",
   "status": "proved",
   "theorems": [
    "W5500.Props.C128",
    "W5500.Props.C128_hasty"
   ],
   "note": "C128: the counterpart of C48, which is false because receive refuses once the peer has closed. C128_hasty is a run that shows that the wait is needed. Time is counted in SPI data bytes."
  },
  {
   "property": "C129",
   "status": "proved",
   "theorems": [
    "W5500.Props.C129",
    "W5500.Props.C129_hasty"
   ],
   "note": "C129: as C128 for a program that only reads, with a shorter wait. C129_hasty is a run that shows that the wait is needed: the program cannot tell the truncated message from the whole one. Time is counted in SPI data bytes."
  },
  {
   "property": "C130",
   "status": "proved",
   "theorems": [
    "W5500.Props.C130_tcp_send",
    "W5500.Props.C130_tcp_receive",
    "W5500.Props.C130_udp_send",
    "W5500.Props.C130_udp_receive",
    "W5500.Props.C130_raw_write",
    "W5500.Props.C130_raw_read",
    "W5500.Props.C130_tcp_send_early",
    "W5500.Props.C130_tcp_receive_early",
    "W5500.Props.C130_udp_send_early",
    "W5500.Props.C130_udp_receive_early",
    "W5500.Props.C130_raw_write_early",
    "W5500.Props.C130_raw_read_early"
   ],
   "note": "Theorems without a suffix have the condition on the pointer as a hypothesis; those with the suffix _early count transfers instead, which the caller can see. Transfers are SPI frames, with those of the failed one. The count for read_frame does not include the data (the buffer may be empty, then no data is transferred). The fourth transfer of write_frame is data, or, if none fits, writes back the pointer that is there."
  },
  {
   "property": "C131",
   "status": "proved",
   "theorems": [
    "W5500.Props.C131_tcp",
    "W5500.Props.C131_udp",
    "W5500.Props.C131_raw",
    "W5500.Props.C131_exact_tcp",
    "W5500.Props.C131_exact_udp",
    "W5500.Props.C131_exact_raw"
   ],
   "note": "Other than in the histories of C45, C36, C42, C55 and C57, the condition on failed calls is one that the caller can see (how many transfers were made); and for UDP and MACRAW it is said that the failed calls sent nothing. A failed send_to is not allowed, because it may have changed one of the two destination registers. C131_exact_tcp, C131_exact_udp and C131_exact_raw are histories with one transfer more in which the claim fails; they are computed. Transfers are SPI frames, with those of the failed one."
  },
  {
   "property": "C132",
   "status": "proved",
   "theorems": [
    "W5500.Props.C132",
    "W5500.Props.C132_again",
    "W5500.Props.C132_exact"
   ],
   "note": "C132: what leaves and what is received. C132_again: the next attempt is successful. C132_exact: what happens without the conditions (computed). C38 is the claim about the remembered address, which is false."
  },
  {
   "property": "C133",
   "status": "proved",
   "theorems": [
    "W5500.Props.C133",
    "W5500.Props.C133_boot",
    "W5500.Props.C133_macraw",
    "W5500.Props.C133_chip",
    "W5500.Props.C133_chip_macraw",
    "W5500.Props.C133_again",
    "W5500.Props.C133_again_macraw"
   ],
   "note": "C19 says it of a single call; this is about whole programs, counts each error once, and gives the number of attempts. C133, C133_boot, C133_macraw: any bus, observed by a log of its transfers; C133_chip, C133_chip_macraw: the chip, where failing transfers are given by number. A transfer in which the bus implementation itself panics or never returns is not a failed one; the call ends the same way (C19)."
  },
  {
   "property": "C134",
   "status": "proved",
   "theorems": [
    "W5500.Props.C134_tcp_send",
    "W5500.Props.C134_tcp_receive",
    "W5500.Props.C134_udp_send",
    "W5500.Props.C134_udp_receive",
    "W5500.Props.C134_raw_write",
    "W5500.Props.C134_raw_read"
   ],
   "note": "C130 is about the call after one failed call; C131 about what is true at the end of a history, not that calls succeed. The hypotheses on the network are those of C76 and C95, from the moment of the call on. C135 does without the assumption that no transfer fails from then on."
  },
  {
   "property": "C135",
   "status": "proved",
   "theorems": [
    "W5500.Props.C135_tcp_send",
    "W5500.Props.C135_tcp_receive",
    "W5500.Props.C135_udp_send",
    "W5500.Props.C135_udp_receive",
    "W5500.Props.C135_raw_write",
    "W5500.Props.C135_raw_read",
    "W5500.Props.C135_udp_send_to"
   ],
   "note": "C134 without the assumption that no transfer fails from now on. What the network has to do is assumed as in C76; the way out is given by SucceedsUnless (Spec/Either.lean). C135_udp_send_to is about the histories of C132. What state a failed call leaves is C130 and C131 (early), and their exact theorems (late)."
  },
  {
   "property": "C136",
   "status": "proved",
   "theorems": [
    "W5500.Props.C136_tcp_send",
    "W5500.Props.C136_tcp_receive",
    "W5500.Props.C136_udp_send",
    "W5500.Props.C136_udp_receive",
    "W5500.Props.C136_udp_send_to",
    "W5500.Props.C136_raw_write",
    "W5500.Props.C136_raw_read"
   ],
   "note": "The attempts are the relation Tries (Spec/Persist.lean). That a failure is early is a hypothesis about each attempt, in numbers of transfers; without it the claim is false (C131_exact_tcp, C131_exact_udp, C131_exact_raw, C132_exact). C136_udp_send_to is about the histories of C132. The state of the socket (and for receives the data queued) is assumed at the last attempt."
  },
  {
   "property": "C137",
   "status": "proved",
   "theorems": [
    "W5500.Props.C137_tcp_connect",
    "W5500.Props.C137_udp_connect",
    "W5500.Props.C137_udp_bind"
   ],
   "note": "The attempts are the relation Tries (Spec/Persist.lean), with any bound m on their transfers. What the network does, the mode of the socket and that no timeout is due are assumed at the last attempt; what the socket object is, at the first one. That later datagrams go to the right address is not part of this claim (C99 says when they do)."
  },
  {
   "property": "C138",
   "status": "proved",
   "theorems": [
    "W5500.Props.C138_tcp",
    "W5500.Props.C138_udp",
    "W5500.Props.C138_raw"
   ],
   "note": "The programs are the relations Insists and Delivers (Spec/Insist.lean). That a failure is early is a hypothesis about each failed call, in numbers of transfers (4 for TCP and MACRAW, 6 for UDP); without it the claim is false (C131_exact_tcp, C131_exact_udp, C131_exact_raw). The state of the socket is assumed at the next call."
  },
  {
   "property": "C139",
   "status": "proved",
   "theorems": [
    "W5500.Props.C139_tcp",
    "W5500.Props.C139_udp",
    "W5500.Props.C139_raw"
   ],
   "note": "The program is the relation Collects (Spec/Collect.lean). That a failure is early is a hypothesis about each failed call, in numbers of transfers (6 for TCP, 7 for UDP, 4 for MACRAW). UDP datagrams may be lost by receive itself (C42), so that the claim for UDP is that those brought are different ones, in order."
  }
 ]
}