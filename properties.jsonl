{"id": "C01", "title": "Four-wire frames reach exactly the addressed registers", "statement": "A frame read or written through bus::FourWire is decoded by a chip that follows the W5500 variable-length SPI framing as one access with the same direction, the same block (mod 32), the same 16-bit start address and the same data bytes; so the chip ends in the same state and the caller gets the same bytes as if the register access had been performed directly, for any history of frames.", "quantifier": "every block byte, every address, every data length and content, every chip behaviour (including one that changes between two bytes of a frame or fails a transaction) and every history of frames", "why_tests_cant": "The mock-SPI tests check one address and one data length; the claim is about every address/length and about chips whose registers change during the frame.", "anchors": ["src/bus/four_wire.rs: FourWire::read_frame, FourWire::write_frame, WRITE_MODE_MASK", "src/bus/mod.rs: Bus"]}
{"id": "C02", "title": "Three-wire chunking covers the data exactly", "statement": "bus::ThreeWire splits a frame into chunks of 4, then 2, then 1 bytes whose concatenation is the data in order, each chunk sent to the start address plus the number of bytes already sent (when the address space is not exceeded).", "quantifier": "every block, start address, data length and content with address + length <= 65535", "why_tests_cant": "Chunking is a loop over unbounded length; tests sample lengths.", "anchors": ["src/bus/three_wire.rs: ThreeWire::read_frame, ThreeWire::write_frame"]}
{"id": "C03", "title": "Three-wire reads are understood by the chip", "statement": "A frame read through bus::ThreeWire is decoded by a chip in fixed-length SPI mode as reads of exactly the requested byte range and leaves chip and driver in step for the next frame.", "quantifier": "every block, address and data length", "why_tests_cant": "Depends on the interaction of a sticky control byte with every length; only some lengths misbehave.", "anchors": ["src/bus/three_wire.rs: ThreeWire::read_frame, FIXED_DATA_LENGTH_MODE_1/2/4"]}
{"id": "C04", "title": "Three-wire writes reach the chip", "statement": "A frame written through bus::ThreeWire is decoded by a chip in fixed-length SPI mode as a write of the given data at the given address.", "quantifier": "every block, address and data", "why_tests_cant": "A mock that mirrors the driver's own constants cannot notice a wrong direction bit; the claim is about all frames.", "anchors": ["src/bus/three_wire.rs: ThreeWire::write_frame, WRITE_MODE_MASK"]}
{"id": "C05", "title": "Bus frames that wrap the 16-bit address space do not panic", "statement": "read_frame/write_frame of either bus accept any start address and data length, including ring-buffer accesses that run past address 0xFFFF, without panicking.", "quantifier": "every start address and data length, with and without overflow checks in the build", "why_tests_cant": "Only reached after 64 KiB of traffic moved the ring pointer to the top of the address space, and only in builds with overflow checks.", "anchors": ["src/bus/three_wire.rs: ThreeWire::read_frame, ThreeWire::write_frame (address += last_length_written)", "src/bus/four_wire.rs: FourWire"]}
{"id": "C06", "title": "Mode register encoding is faithful", "statement": "Mode::to_u8 sets bit 5 iff wake-on-LAN is enabled, bit 4 iff ping is ignored, bit 3 iff PPPoE, bit 1 iff force-ARP; it never sets the reset bit or a reserved bit, and two different Mode values give different bytes.", "quantifier": "every Mode value and every bit position", "why_tests_cant": "Tests check two of the values; injectivity and the absence of the reset bit range over all.", "anchors": ["src/lib.rs: Mode::to_u8, Mode::to_register, OnWakeOnLan, OnPingRequest, ConnectionType, ArpResponses"]}
{"id": "C07", "title": "RetryTime register round trip", "statement": "RetryTime::from_register(t.to_register()) = t for every retry time, and from_register/to_register are mutually inverse on all byte pairs, most significant byte first.", "quantifier": "every 16-bit retry time and every pair of register bytes", "why_tests_cant": "65536 values; endianness slips show only on asymmetric ones.", "anchors": ["src/register.rs: common::RetryTime::to_register, from_register, to_u16"]}
{"id": "C08", "title": "RetryTime millisecond conversion is exact", "statement": "RetryTime::from_millis(ms) denotes ms milliseconds (10*ms register units) and to_millis returns ms again, without panicking, for every u16 number of milliseconds.", "quantifier": "every u16 millisecond value, with and without overflow checks", "why_tests_cant": "Overflow happens only from 6554 ms upward.", "anchors": ["src/register.rs: common::RetryTime::from_millis, to_millis, Default"]}
{"id": "C09", "title": "PHY configuration decoding", "statement": "For the PHY register value read from the chip, link_up, speed, duplex and operation_mode report bits 0, 1, 2 and 5..3 of the byte, and no accessor panics.", "quantifier": "every byte value of PHYCFGR", "why_tests_cant": "A panic arm exists for one operation mode code that tests do not produce.", "anchors": ["src/register.rs: common::PhyConfig::link_up, speed, duplex, operation_mode, PhyOperationMode", "src/device.rs: Device::phy_config"]}
{"id": "C10", "title": "Socket status decoding is exact", "statement": "A status byte is accepted exactly if it is one of the thirteen datasheet socket states and is then decoded to that state; every other byte is rejected as unrecognised.", "quantifier": "every status byte", "why_tests_cant": "One value is tested; a wrong or missing code point would silently turn a legal state into an error.", "anchors": ["src/register.rs: socketn::Status (TryFromPrimitive)"]}
{"id": "C11", "title": "MAC address value semantics", "statement": "MacAddress::new/from/octets round trip, and Display prints exactly six two-digit upper-case hexadecimal groups separated by colons so that different addresses print differently.", "quantifier": "every 48-bit MAC address", "why_tests_cant": "2^48 values.", "anchors": ["src/net.rs: MacAddress::new, octets, From<[u8;6]>, Display"]}
{"id": "C12", "title": "UDP header decoding", "statement": "UdpHeader::from_array of the 8 bytes the chip stores in front of a datagram from a.b.c.d:port with n data bytes yields origin a.b.c.d:port and len n.", "quantifier": "every IPv4 address, port and 16-bit length", "why_tests_cant": "2^64 header values; byte order and index slips need asymmetric values.", "anchors": ["src/udp.rs: UdpHeader, From<[u8; 8]>, from_array"]}
{"id": "C13", "title": "Socket block numbering is disjoint", "statement": "The register, TX and RX block numbers used for the 8 sockets are pairwise different, differ from the common block, fit in 5 bits and are the datasheet's block select values.", "quantifier": "every pair of sockets and block kinds", "why_tests_cant": "Pairwise disjointness is quantified; a collision makes one socket corrupt another.", "anchors": ["src/socket.rs: Socket::new, register, tx_buffer, rx_buffer", "src/register.rs: SOCKETn constants"]}
{"id": "C14", "title": "No socket is handed out twice", "statement": "In any history of socket allocations and releases on a device (UDP, TCP or raw take_socket, in any order, with closes that may fail), two sockets alive at the same time never have the same index, and every index is below 8.", "quantifier": "every history of allocate/close/release operations, with arbitrary bus failures", "why_tests_cant": "Property of unbounded histories.", "anchors": ["src/device.rs: DeviceState::socket, release_socket, Device::take_socket, Device::release_socket", "src/udp.rs: UdpClientStack::socket, close", "src/tcp.rs: TcpClientStack::socket, close"]}
{"id": "C15", "title": "Allocation fails exactly when all eight slots are taken", "statement": "take_socket returns None (and UDP/TCP socket() returns NoMoreSockets) iff eight slots are outstanding; it causes no bus traffic; otherwise it returns the lowest free index.", "quantifier": "every reachable allocation state", "why_tests_cant": "Quantifies over all histories leading to the state.", "anchors": ["src/device.rs: DeviceState::socket", "src/udp.rs: UdpClientStack::socket", "src/tcp.rs: TcpClientStack::socket"]}
{"id": "C16", "title": "A slot is returned iff close succeeds", "statement": "close(socket) frees the slot iff both of its bus writes succeed; a failed close consumes the socket without freeing the slot, and that slot is then never handed out again in any later history of the device.", "quantifier": "every device state, every bus, every failing step, every later history", "why_tests_cant": "Needs failure injection at every step and all continuations.", "anchors": ["src/udp.rs: UdpClientStack::close, UdpSocket::socket_close", "src/tcp.rs: TcpClientStack::close, TcpSocket::socket_close", "src/device.rs: Device::release_socket"]}
{"id": "C17", "title": "Device reset is refused while sockets are outstanding", "statement": "Device::reset returns SocketsNotReleased without any bus traffic iff some slot is outstanding; otherwise it performs exactly one bus write, of the reset bit to the mode register.", "quantifier": "every device state and bus", "why_tests_cant": "All allocation histories and bus outcomes.", "anchors": ["src/device.rs: Device::reset, reset_device, DeviceState::any_allocated"]}
{"id": "C18", "title": "Deactivating and activating keeps the allocation state", "statement": "Moving a device through deactivate/activate (or activate_ref) any number of times anywhere in a history changes nothing about which sockets are outstanding.", "quantifier": "every history with deactivate/activate inserted at arbitrary points", "why_tests_cant": "Property of histories.", "anchors": ["src/device.rs: Device::deactivate, Device::release, InactiveDevice::activate, activate_ref"]}
{"id": "C19", "title": "First bus error stops the operation and is reported", "statement": "If any bus transfer made by a UDP, TCP, raw, device or initialisation call fails, that transfer is the last one the call makes and the call returns exactly that error wrapped in the API's error type; conversely the call reports a bus error only if a transfer failed.", "quantifier": "every public bus-using operation, every bus and every failing transfer", "why_tests_cant": "Failure can occur at any of an unbounded number of transfers (polling loops).", "anchors": ["src/socket.rs", "src/cursor.rs", "src/udp.rs", "src/tcp.rs", "src/raw_device.rs", "src/device.rs", "src/uninitialized_device.rs", "src/host/mod.rs"]}
{"id": "C20", "title": "Sockets are isolated on the bus", "statement": "Every bus transfer made by an operation on a UDP or TCP socket addresses the register, TX or RX block of that very socket; hence in any history, operations on one live socket never touch blocks of another live socket or the common registers.", "quantifier": "every operation, argument, bus behaviour (including non-terminating polling) and history", "why_tests_cant": "Holds for all transfers of all histories; a mock only sees expected ones.", "anchors": ["src/udp.rs", "src/tcp.rs", "src/socket.rs", "src/device.rs"]}
{"id": "C21", "title": "The driver writes only writable registers and never its RX memory", "statement": "No operation of the UDP, TCP, MACRAW, device, host-settings or initialisation API ever writes a socket status, free-size, received-size or TX-read-pointer register or RX buffer memory, and none reads TX buffer memory; all socket register accesses are to documented offsets with the register's width.", "quantifier": "every operation of these APIs and every bus behaviour (not the register methods of Socket called by the program itself, for which see C100)", "why_tests_cant": "All transfers in all executions.", "anchors": ["src/socket.rs", "src/udp.rs", "src/tcp.rs", "src/raw_device.rs", "src/cursor.rs"]}
{"id": "C22", "title": "Received size is a stable sample", "statement": "The received-size value the driver acts on was returned by two consecutive reads; and if the chip's counter only grows while it is read byte by byte, it equals a value the counter really had during the call (it is never a torn mix) and never exceeds the current one.", "quantifier": "every bus behaviour; every monotone sequence of counter values sampled byte by byte", "why_tests_cant": "Torn reads depend on the exact interleaving of chip updates with SPI bytes.", "anchors": ["src/socket.rs: Socket::get_receive_size"]}
{"id": "C23", "title": "Free-size sample never overestimates", "statement": "The TX free size the driver acts on, although read only once, never exceeds the chip's real free size at the end of the read if the free size only grows meanwhile, even when the two bytes are sampled at different times.", "quantifier": "every monotone sequence of free-size values sampled byte by byte", "why_tests_cant": "Torn reads depend on the exact interleaving.", "anchors": ["src/socket.rs: Socket::get_tx_free_size"]}
{"id": "C24", "title": "Nothing is written to an unexpected chip", "statement": "initialize, initialize_manual and initialize_advanced read the version register first; unless it is 4 they return ChipNotConnected (or the bus error) and perform no write at all.", "quantifier": "every bus behaviour and every argument", "why_tests_cant": "All version values and failure points.", "anchors": ["src/uninitialized_device.rs: initialize_with_host, assert_chip_version, version"]}
{"id": "C25", "title": "Manual initialisation programs the requested configuration", "statement": "If initialize_advanced succeeds on a chip whose registers take their reset values on reset, the chip then holds the requested gateway, subnet, MAC, IP and mode, whatever it held before, including all-zero settings that the driver skips writing.", "quantifier": "every prior chip state and every mac/ip/gateway/subnet/mode", "why_tests_cant": "Correctness of the skip-if-default optimisation ranges over all settings and prior states.", "anchors": ["src/uninitialized_device.rs: initialize_advanced, initialize_with_host, reset, set_mode", "src/host/manual.rs: Manual::refresh", "src/host/mod.rs: Host::write_settings"]}
{"id": "C26", "title": "initialize_manual derives gateway and subnet", "statement": "initialize_manual(mac, a.b.c.d, mode) behaves exactly like initialize_advanced with gateway a.b.c.1 and subnet 255.255.255.0.", "quantifier": "every ip, mac, mode, bus", "why_tests_cant": "All addresses.", "anchors": ["src/uninitialized_device.rs: initialize_manual"]}
{"id": "C27", "title": "initialize programs the given MAC address", "statement": "If initialize(mac, mode) succeeds the chip's hardware address register holds mac.", "quantifier": "every mac, mode and chip", "why_tests_cant": "A mock test that replays the driver's own writes cannot notice a write that is missing.", "anchors": ["src/uninitialized_device.rs: initialize", "src/host/dhcp.rs: Dhcp::new, Dhcp::refresh"]}
{"id": "C28", "title": "Host settings writing is resumable and idempotent", "statement": "Manual::refresh may be retried after a bus failure at any point: once a retry succeeds, the chip holds all four settings; after that, further refreshes cause no bus traffic.", "quantifier": "every sequence of refresh attempts with failures at arbitrary transfers", "why_tests_cant": "Crash points times retries.", "anchors": ["src/host/manual.rs: Manual::refresh", "src/host/mod.rs: Host::write_settings"]}
{"id": "C29", "title": "MACRAW initialisation configures the chip as documented", "statement": "If initialize_macraw succeeds the chip has been reset, has the given MAC address, gives all 16 KiB of RX and TX memory to socket 0 and none to sockets 1..7, and socket 0 is in MACRAW mode with MAC filtering, opened last.", "quantifier": "every mac and prior chip state", "why_tests_cant": "Final register state for all prior states.", "anchors": ["src/uninitialized_device.rs: initialize_macraw", "src/raw_device.rs: RawDevice::new"]}
{"id": "C30", "title": "Register getters return what was set", "statement": "On a chip that keeps its registers, set_retry_timeout/set_retry_count/set_mode followed by any other accessors and then current_retry_timeout/current_retry_count returns the value last set; gateway, subnet_mask, mac, ip return the values last programmed; setting one never changes another.", "quantifier": "every history of setter and getter calls with arbitrary values", "why_tests_cant": "Independence of overlapping multi-byte registers over all histories.", "anchors": ["src/device.rs: Device::{gateway,subnet_mask,mac,ip,set_retry_timeout,current_retry_timeout,set_retry_count,current_retry_count,set_mode,version,phy_config}", "src/uninitialized_device.rs: the same accessors", "src/register.rs: common addresses"]}
{"id": "C31", "title": "UDP socket opening sequence", "statement": "UDP connect/bind program, in this order, CLOSE, interrupt clear, source port, UDP mode, interrupt mask, OPEN (then destination IP and port for connect), so that on a conforming chip a successful call leaves the socket in UDP state with the requested local port / destination.", "quantifier": "every socket, port, remote address and prior chip state", "why_tests_cant": "Final chip state for all prior states.", "anchors": ["src/udp.rs: UdpSocket::open, set_port, set_destination, UdpClientStack::connect, UdpFullStack::bind"]}
{"id": "C32", "title": "Opening a socket enables its send-ok and timeout interrupts", "statement": "After UDP connect/bind or TCP connect the socket's interrupt mask enables the SENDOK and TIMEOUT interrupts.", "quantifier": "every socket and bus", "why_tests_cant": "Tests would copy the driver's own expression.", "anchors": ["src/udp.rs: UdpSocket::open", "src/tcp.rs: TcpSocket::open, reopen"]}
{"id": "C33", "title": "Default local ports", "statement": "A UDP socket that was never bound and a TCP socket on connect use local port 49849 + index, different for different live sockets; get_port reports the last port set.", "quantifier": "every socket and history of set_port/bind", "why_tests_cant": "Distinctness over all pairs.", "anchors": ["src/udp.rs: UdpSocket::new, get_port, set_port", "src/tcp.rs: TcpClientStack::connect"]}
{"id": "C34", "title": "IPv6 remotes are rejected without side effects", "statement": "connect and send_to with an IPv6 remote return UnsupportedAddress, cause no bus traffic and change neither socket nor device.", "quantifier": "every socket, device, bus and buffer", "why_tests_cant": "All states.", "anchors": ["src/udp.rs: connect, send_to", "src/tcp.rs: connect"]}
{"id": "C35", "title": "UDP send preconditions", "statement": "send/send_to report SocketNotOpen if the chip says the socket is not in UDP state, UnrecognisedStatus for an unknown status byte, DestinationNotSet when no destination was ever set, BufferFull when there is no free TX space — and in all these cases write nothing to TX memory, pointers or command register.", "quantifier": "every status byte, socket state, buffer and bus", "why_tests_cant": "All status values and bus answers.", "anchors": ["src/udp.rs: UdpSocket::socket_send_all, socket_send"]}
{"id": "C36", "title": "UDP send transmits exactly the caller's data", "statement": "On a conforming chip, when send returns Ok the datagrams put on the wire (or timed out) during the call, in order, carry the caller's buffer exactly once: one datagram if the buffer fits the free TX space, otherwise consecutive pieces whose concatenation is the buffer, all to the socket's destination; nothing else is transmitted.", "quantifier": "every buffer, ring-pointer position (including wrap-around), TX buffer size, chip timing schedule", "why_tests_cant": "Ring wrap-around and all interleavings of chip progress with driver polling.", "anchors": ["src/udp.rs: UdpSocket::socket_send_all, socket_send, block_send_command, try_flush_tx"]}
{"id": "C37", "title": "A UDP send is one datagram", "statement": "UDP send either transmits the whole buffer as one datagram or fails.", "quantifier": "every buffer length and free TX size", "why_tests_cant": "Boundary between buffer length and free size over all values.", "anchors": ["src/udp.rs: UdpSocket::socket_send_all"]}
{"id": "C38", "title": "UDP destination cache is coherent with the chip", "statement": "Whenever a UDP socket remembers a destination and a send is attempted, the chip's destination registers of that socket hold that address, in any history of connect/send_to/bind calls, including calls that failed.", "quantifier": "every history of operations with arbitrary bus failures", "why_tests_cant": "Failure at one of two consecutive writes followed by particular later calls.", "anchors": ["src/udp.rs: UdpSocket::set_destination, destination"]}
{"id": "C39", "title": "UDP receive reports the sender and payload prefix", "statement": "When receive returns Ok((n, origin)), origin is the source of the oldest queued datagram and the leading min(payload length, n) bytes of the caller's buffer are that datagram's payload prefix.", "quantifier": "every queue of datagrams, ring position, buffer size and arrival schedule", "why_tests_cant": "Ring wrap-around and concurrent arrivals.", "anchors": ["src/udp.rs: UdpSocket::socket_receive, UdpHeader"]}
{"id": "C40", "title": "UDP receive returns the payload length", "statement": "When receive returns Ok((n, _)), n is the number of payload bytes of the datagram stored in the buffer (the payload length, or the buffer length if truncated).", "quantifier": "every datagram length and buffer length", "why_tests_cant": "Depends on all combinations of received size, header length and buffer length.", "anchors": ["src/udp.rs: UdpSocket::socket_receive (read_length)"]}
{"id": "C41", "title": "UDP receive truncates instead of panicking", "statement": "receive never panics; a datagram longer than the buffer is truncated.", "quantifier": "every datagram length and buffer length", "why_tests_cant": "A remote peer chooses the datagram length.", "anchors": ["src/udp.rs: UdpSocket::socket_receive (receive_buffer[..read_length])"]}
{"id": "C42", "title": "Each queued datagram is delivered once", "statement": "If several datagrams are queued, successive receive calls deliver them one after the other, in arrival order.", "quantifier": "every queue of datagrams and arrival schedule", "why_tests_cant": "Depends on timing of arrivals relative to receive.", "anchors": ["src/udp.rs: UdpSocket::socket_receive (set_rx_read_pointer)"]}
{"id": "C43", "title": "UDP receive with nothing to read has no effect", "statement": "receive returns WouldBlock iff the socket is open and either the receive interrupt is clear or the received size is 0; in that case, and in all error cases before the data is read, nothing is written to the chip and the caller's buffer is unchanged.", "quantifier": "every bus behaviour and buffer", "why_tests_cant": "All bus answers.", "anchors": ["src/udp.rs: UdpSocket::socket_receive"]}
{"id": "C44", "title": "TCP send/receive need an established connection", "statement": "send and receive return NotConnected iff the status read is not ESTABLISHED, and then write nothing to the chip.", "quantifier": "every status byte, buffer and bus", "why_tests_cant": "All status values.", "anchors": ["src/tcp.rs: TcpSocket::socket_send, socket_receive, socket_is_connected"]}
{"id": "C45", "title": "TCP send is a faithful byte stream", "statement": "On a conforming chip, for any sequence of successful send calls on a connection, the bytes transmitted plus those still queued equal, in order and without loss or duplication, the concatenation of the accepted prefixes, where each call accepts min(buffer length, reported free size) bytes and reports that number.", "quantifier": "every sequence of buffers, ring position, buffer size and schedule of transmissions, acknowledgements and status/interrupt changes", "why_tests_cant": "Ring wrap-around and all interleavings.", "anchors": ["src/tcp.rs: TcpSocket::socket_send"]}
{"id": "C46", "title": "TCP receive is a faithful byte stream", "statement": "On a conforming chip, for any sequence of successful receive calls with any buffer sizes, the concatenation of the delivered bytes is a prefix of the bytes that arrived, in order and without loss or duplication, the rest being still queued; bytes of the caller's buffer beyond the returned count are unchanged.", "quantifier": "every sequence of buffer sizes, ring position and arrival schedule (including arrivals between two bytes of an SPI frame)", "why_tests_cant": "Ring wrap-around and all interleavings.", "anchors": ["src/tcp.rs: TcpSocket::socket_receive", "src/socket.rs: get_receive_size, get_rx_read_pointer, set_rx_read_pointer"]}
{"id": "C47", "title": "TCP receive delivers queued data", "statement": "If bytes are queued on an established connection, receive with a non-empty buffer returns at least one of them.", "quantifier": "every queue content and history of receive calls", "why_tests_cant": "Needs a history with a partial read and no later arrival.", "anchors": ["src/tcp.rs: TcpSocket::socket_receive (reset_interrupt Receive)"]}
{"id": "C48", "title": "TCP data sent before the peer closed is readable", "statement": "Bytes that arrived before the peer's FIN can still be received after it.", "quantifier": "every queue content and close timing", "why_tests_cant": "Timing of FIN relative to receive.", "anchors": ["src/tcp.rs: TcpSocket::socket_is_connected, socket_receive"]}
{"id": "C49", "title": "TCP connect success means connected", "statement": "connect returns Ok(()) only if the chip reported ESTABLISHED.", "quantifier": "every sequence of status values during connect", "why_tests_cant": "All status sequences.", "anchors": ["src/tcp.rs: TcpSocket::socket_connect"]}
{"id": "C50", "title": "TCP connect terminates", "statement": "connect returns whenever the connection attempt is over, i.e. once the chip has left the connecting states (also if the peer closes immediately).", "quantifier": "every sequence of status values", "why_tests_cant": "Non-termination cannot be observed by a finite test.", "anchors": ["src/tcp.rs: TcpSocket::socket_connect"]}
{"id": "C51", "title": "TCP send terminates", "statement": "send returns (possibly with an error) once the chip has finished or given up sending, i.e. after SENDOK, or after a timeout that closed the socket.", "quantifier": "every sequence of status and interrupt values", "why_tests_cant": "Non-termination cannot be observed by a finite test.", "anchors": ["src/tcp.rs: TcpSocket::socket_send"]}
{"id": "C52", "title": "TCP connect programs the requested endpoint before connecting", "statement": "The CONNECT command is issued only after local port 49849+index, TCP mode, OPEN, and the remote IP and port have been written to that socket, with the requested remote; no CONNECT is issued if the chip reports the socket in a non-TCP or unknown state.", "quantifier": "every remote, socket, and sequence of status values", "why_tests_cant": "All status sequences.", "anchors": ["src/tcp.rs: TcpClientStack::connect, TcpSocket::open, reopen, socket_connect"]}
{"id": "C53", "title": "A failed TCP send has not queued the data", "statement": "If send returns a bus error, the data of that call is not transmitted, neither now nor by later calls (so the caller may retry without duplication).", "quantifier": "every failing transfer and every continuation", "why_tests_cant": "Crash points times continuations.", "anchors": ["src/tcp.rs: TcpSocket::socket_send"]}
{"id": "C54", "title": "A failed receive does not corrupt later receives", "statement": "If receive returns a bus error, later successful receives deliver the remaining stream correctly.", "quantifier": "every failing transfer and every continuation", "why_tests_cant": "Crash points times continuations.", "anchors": ["src/tcp.rs: TcpSocket::socket_receive"]}
{"id": "C55", "title": "MACRAW frames are received one by one", "statement": "On a conforming chip, successive read_frame calls return the queued ethernet frames in arrival order, one per call, each truncated to the caller's buffer, with the returned length being the number of bytes stored; truncation never disturbs the following frames; 0 is returned when no frame is queued.", "quantifier": "every queue of frames, ring position, buffer sizes and arrival schedule", "why_tests_cant": "Ring wrap-around, truncation and concurrent arrivals.", "anchors": ["src/raw_device.rs: RawDevice::read_frame", "src/cursor.rs: RxCursor"]}
{"id": "C56", "title": "MACRAW receive never overruns", "statement": "For any bytes and sizes a chip reports, read_frame stores at most the buffer length, returns the number stored, advances the read pointer by at most the reported received size, and panics only if exactly one byte is reported available.", "quantifier": "every reported size, length prefix, buffer and bus behaviour", "why_tests_cant": "Malformed size combinations.", "anchors": ["src/raw_device.rs: RawDevice::read_frame", "src/cursor.rs: RxCursor::read, read_upto, skip, commit"]}
{"id": "C57", "title": "MACRAW send is all or nothing", "statement": "write_frame returns either the frame length, having written the whole frame at the write pointer and advanced it by exactly that length, or 0 having written no frame data and left the pointer; on a conforming chip exactly that frame is transmitted.", "quantifier": "every frame length, free size, ring position and schedule", "why_tests_cant": "Boundary free size = length, ring wrap-around.", "anchors": ["src/raw_device.rs: RawDevice::write_frame", "src/cursor.rs: TxCursor"]}
{"id": "C58", "title": "MACRAW send of an oversized frame is harmless", "statement": "write_frame of a frame that does not fit returns 0 without issuing a send command and without blocking.", "quantifier": "every oversized frame and bus", "why_tests_cant": "Blocking cannot be observed by finite tests.", "anchors": ["src/raw_device.rs: RawDevice::write_frame", "src/cursor.rs: TxCursor::commit"]}
{"id": "C59", "title": "MACRAW interrupt control", "statement": "enable_interrupts(m) leaves socket 0's mask = m and the global mask enabling only socket 0; disable_interrupts leaves the global mask 0; clear_interrupts clears all pending socket-0 interrupt bits; none of them touches other registers.", "quantifier": "every mask and prior chip state", "why_tests_cant": "Final state for all prior states.", "anchors": ["src/raw_device.rs: enable_interrupts, clear_interrupts, disable_interrupts"]}
{"id": "C60", "title": "Transmit ordering", "statement": "In every send (UDP, TCP, MACRAW) the SEND command is issued only after the payload has been written to TX memory at the current write pointer and the write pointer register has been advanced by exactly the number of payload bytes.", "quantifier": "every buffer, bus behaviour and failing step", "why_tests_cant": "All failure points and polling histories.", "anchors": ["src/udp.rs: socket_send", "src/tcp.rs: socket_send", "src/cursor.rs: TxCursor::write, commit"]}
{"id": "C61", "title": "Sockets do not disturb each other", "statement": "For a client of an initialised device: whatever it does with its other sockets (connect, bind, send, receive, close, drop, open new ones, on any protocol) and with the device, a connected TCP socket still delivers exactly the accepted bytes in order and its receive calls return exactly the arrived bytes in order; an open UDP socket still emits only the datagrams that its own calls asked for, and returns only what arrived on it.", "quantifier": "every client program, every interleaving of operations on all sockets, every peer/network schedule, every bus fault pattern", "why_tests_cant": "Interference would show up only in particular interleavings of up to eight sockets with the hidden state of the chip.", "anchors": ["src/device.rs: Device, take_socket, release_socket", "src/socket.rs: Socket::new (register, tx_buffer, rx_buffer)", "src/tcp.rs", "src/udp.rs"]}
{"id": "C62", "title": "Initialisation leaves every socket at its reset values", "statement": "After a successful initialize / initialize_advanced, whatever the chip held before, all eight socket register blocks hold the values of the reset chip (2 kB TX and RX buffers, no protocol, no destination); writing the host settings does not touch them.", "quantifier": "every initial chip state, settings, mode, schedule and fault pattern", "why_tests_cant": "Leftovers of a previous run in a register that no test looks at.", "anchors": ["src/uninitialized_device.rs: initialize_with_host, reset", "src/host/mod.rs: write_settings"]}
{"id": "C63", "title": "Only UDP receive and MACRAW read_frame can panic", "statement": "On a bus whose transfers do not panic, no operation of any client program panics: allocation, connect, bind, set_port, send, send_to, TCP receive, close, release_socket, all register getters and setters, the initialisers, Device::reset and RawDevice::write_frame. (UDP receive is C41, read_frame is C56.)", "quantifier": "every bus behaviour (including failures), every history of calls, every argument", "why_tests_cant": "Slice bounds and index checks depend on register values that a test chip never reports.", "anchors": ["src/device.rs", "src/tcp.rs", "src/udp.rs", "src/uninitialized_device.rs", "src/raw_device.rs: write_frame"]}
{"id": "C64", "title": "A closed socket is silent", "statement": "After close returned Ok the socket's status is CLOSED, it has no protocol, its slot is free; and until it is opened again no byte or packet leaves through it and nothing arrives on it, whatever the network and the other sockets do.", "quantifier": "every client program, schedule and fault pattern", "why_tests_cant": "Late network events after close, in every interleaving with other sockets.", "anchors": ["src/udp.rs: socket_close, close", "src/tcp.rs: socket_close, close"]}
{"id": "C65", "title": "Sockets can be reconnected after reset_device", "statement": "After reset_device returned Ok, a successful connect of a UDP socket programs the requested destination into the chip.", "quantifier": "every socket object, destination, chip state, schedule and fault pattern", "why_tests_cant": "Needs the combination of a reset with a socket object that survives it and caches its destination.", "anchors": ["src/device.rs: reset_device", "src/udp.rs: set_destination, connect"]}
{"id": "C66", "title": "Without bus failures, failed calls do no harm", "statement": "As long as no call returns a bus error, and whatever other errors calls return (NotConnected, WouldBlock, WriteTimeout, BufferFull, ...), the byte streams of a TCP connection are exact, the packets of a UDP socket are those of its send calls (call by call, to the right destination), received datagrams are datagrams that arrived, and the socket object's destination is the one in the chip.", "quantifier": "every history of calls, schedule and fault pattern in which no call returns a bus error", "why_tests_cant": "Which call is refused, and where in its loop, depends on the interleaving with network events.", "anchors": ["src/tcp.rs: socket_send, socket_receive", "src/udp.rs: socket_send, socket_send_to, socket_receive, set_destination"]}
{"id": "C67", "title": "Receiving always terminates", "statement": "A TCP receive, a UDP receive and a MACRAW read_frame always return, whatever arrives meanwhile and whichever transfers fail: the loop that re-reads the size register until two readings agree ends after at most as many rounds as there are bytes in the RX buffer.", "quantifier": "every chip state with RX buffers below 64 KiB, schedule of network events and fault pattern", "why_tests_cant": "Termination for every interleaving of arrivals with register reads is not observable by running finitely many of them.", "anchors": ["src/socket.rs: get_receive_size", "src/tcp.rs: socket_receive", "src/udp.rs: socket_receive", "src/raw_device.rs: read_frame"]}
{"id": "C68", "title": "Sending and connecting terminate if the network is fair", "statement": "If committed data leaves (or is dropped) some time, UDP send and send_to return; if in addition SENDOK is raised some time and nothing is dropped, MACRAW write_frame of a non-empty frame that fits the TX buffer returns; if SENDOK keeps being raised, TCP send returns; if the chip keeps coming to a verdict, TCP connect returns.", "quantifier": "every reachable state of the socket, data, schedule with the stated fairness, fault pattern", "why_tests_cant": "A liveness property: no finite run refutes it, and it has to hold for all fair schedules.", "anchors": ["src/tcp.rs: socket_connect, socket_send", "src/udp.rs: socket_send, socket_send_to, flush loop", "src/raw_device.rs: write_frame"]}
{"id": "C69", "title": "A UDP send reports faithfully what became of its datagram", "statement": "As long as no call returns a bus error: when send or send_to returns Ok, every packet of the call got out; when it returns WriteTimeout, exactly the last packet of the call was dropped by the chip (address resolution failed) and the ones before got out; with any other result, all packets of the call got out.", "quantifier": "every history of calls on a UDP socket, data, schedule of network events on a chip that announces promptly what became of a packet", "why_tests_cant": "Whether the outcome of one packet is mistaken for that of another depends on leftovers of interrupt flags from earlier calls and on when the chip raises them; tests with a mock chip fix one order.", "anchors": ["src/udp.rs: try_flush_tx (266-296), socket_send_all, send_to", "src/socket.rs: has_interrupt, reset_interrupt"]}
{"id": "C70", "title": "Errors are never made up", "statement": "Whenever a call on a UDP or TCP socket returns an error, the end of its bus traffic justifies it: a bus error repeats the failure of the last transfer; NotConnected, SocketNotOpen, UnrecognisedStatus and UnsupportedMode follow a status read that says so; WouldBlock follows a read of the interrupt register without RECV or two equal size reads of 0; BufferFull follows a free size of 0; BufferOverflow an empty buffer with data waiting; WriteTimeout follows equal TX pointers, SENDOK clear, TIMEOUT set, and its acknowledgement; DestinationNotSet a socket without destination. No call returns any other error, and an IPv6 address is refused without traffic.", "quantifier": "every bus (any answers, any failures), socket, buffer and state", "why_tests_cant": "The claim is about every combination of answers a chip could give at each of many reads; tests try a handful of scripted answers.", "anchors": ["src/udp.rs: socket_send, socket_send_all, try_flush_tx, socket_receive, connect, bind, send_to", "src/tcp.rs: socket_connect, socket_send, socket_receive", "src/register.rs: Status::try_from"]}
{"id": "C71", "title": "The driver's repertoire of commands", "statement": "Whatever the client does and whatever the chip answers, the driver gives a socket no command other than OPEN, CONNECT, CLOSE, SEND and RECV, no mode other than closed, TCP, UDP and (socket 0 only) MACRAW with MAC filter, no buffer size other than 0 and 16 KB; the chip's mode register is given either the reset bit alone or a value without reset bit and reserved bits, and the socket interrupt mask only 0 or socket 0.", "quantifier": "every bus, history of client operations, initialisation parameters and MACRAW operation (not the register methods of Socket called by the program itself, for which see C100)", "why_tests_cant": "A stray command in some rarely taken branch (error path, reconnect) would go unnoticed unless a test takes exactly that branch and inspects the traffic.", "anchors": ["src/register.rs: socketn::Command, Protocol", "src/socket.rs: command, set_mode", "src/raw_device.rs: new, enable_interrupts", "src/device.rs: set_mode, reset_device"]}
{"id": "C72", "title": "End to end: the peer reads what was written", "statement": "Two programs, each with its own chip, bus, bus faults and timing. TCP: if the network carries the byte stream transmitted by A to B, then the bytes B's receive calls returned, followed by what waits in B's chip, are an initial part of the bytes A's send calls accepted; with everything transmitted, arrived and read they are equal. UDP: over a network that forges nothing, every datagram B received from A's address is a piece of a buffer A sent to B's address (the whole buffer if it fits the transmit memory); if the network keeps order, so does what B received.", "quantifier": "all histories of both programs, chip timing, bus faults, and networks satisfying the stated hypothesis", "why_tests_cant": "Needs all interleavings of two programs, two chips and the network at once; a test sees one of them.", "anchors": ["src/tcp.rs: socket_connect, socket_send, socket_receive", "src/udp.rs: socket_send, socket_receive, connect, bind, send_to"]}
{"id": "C73", "title": "Buses that answer alike cannot be told apart", "statement": "If two buses answer every transfer alike (from related states: same result, same bytes read, related states), then any program using the driver sees the same results and buffers on both, call by call, and ends with the same sockets and device state. The same for initialisation and the raw device. In particular recording the traffic changes nothing.", "quantifier": "all pairs of buses, all relations between their states, all programs (lists of operations) of any length", "why_tests_cant": "A statement about every pair of buses; a test has one.", "anchors": ["src/bus/mod.rs: trait Bus", "src/tcp.rs", "src/udp.rs", "src/device.rs", "src/raw_device.rs", "src/uninitialized_device.rs"]}
{"id": "C74", "title": "Nothing depends on the contents of the data sent", "statement": "Two programs that differ only in the bytes they send (not in their number), on chips that differ only in the contents of transmit memory, see the same results, and cause the same bus traffic except for the data written to transmit memory, which has the same length. Afterwards the chips still differ only in transmit memory and in the bytes transmitted. The same for write_frame.", "quantifier": "all programs, payloads of equal length, chip timing, transfer failures", "why_tests_cant": "A relation between two runs for all pairs of payloads.", "anchors": ["src/tcp.rs: socket_send", "src/udp.rs: send", "src/cursor.rs: TxCursor::write", "src/raw_device.rs: write_frame"]}
{"id": "C75", "title": "Calls on different sockets commute", "statement": "On a bus where transfers to the blocks of different sockets do not influence each other, calls on different sockets do not either: in any interleaving of the calls of a program on one socket with those of a program on another, both see what they would see alone, and the final state is that of running one after the other.", "quantifier": "all such buses, all reachable clients, all programs and all interleavings", "why_tests_cant": "All interleavings of programs of any length.", "anchors": ["src/socket.rs", "src/tcp.rs", "src/udp.rs"]}
{"id": "C76", "title": "If nothing goes wrong, calls succeed", "statement": "If no transfer fails, the status of the socket stays what it has to be (0x22 for UDP, 0x17 for an established TCP connection), and the chip sends what it is given and says so, then send, send_to, receive (with something waiting and room for it), connect, bind, read_frame and write_frame (of a frame that fits) return Ok after finitely many polling rounds, with the effect they are called for (everything has left, in order, none dropped; the oldest datagram or frame is delivered), and the socket is ready for the next call. From power-up, connect followed by any number of sends all succeed. On any bus without failures close, reset, initialisation and all register accesses return Ok.", "quantifier": "all such chips, schedules, histories of earlier calls, data and buffers", "why_tests_cant": "Tests show some calls that succeed; this excludes any input or timing for which a call fails for no reason.", "anchors": ["src/udp.rs: socket_send_all, block_send_command, socket_receive, connect, bind", "src/tcp.rs: socket_connect, socket_send, socket_receive", "src/raw_device.rs: read_frame, write_frame", "src/uninitialized_device.rs", "src/device.rs"]}
{"id": "C77", "title": "No lost wake-ups", "statement": "Whatever waits in the receive memory when a UDP or TCP receive returns Ok is announced by the RECV interrupt, so that one of the next receive calls delivers it.", "quantifier": "every chip state, schedule of arrivals (including arrivals during the call), buffer length and number of later calls", "why_tests_cant": "The arrival has to fall between the size read and the acknowledgement of the interrupt; and that no later call ever delivers it cannot be tested.", "anchors": ["src/udp.rs: UdpSocket::receive (reset_interrupt after Command::Receive)", "src/tcp.rs: TcpSocket::socket_receive", "src/socket.rs: has_interrupt, reset_interrupt"]}
{"id": "C78", "title": "Ok of a TCP send means transmitted", "statement": "On a chip that raises SENDOK only once everything handed over by SEND is transmitted, a TCP send that returns Ok(k) has had its first k bytes transmitted: nothing is pending afterwards.", "quantifier": "every connected socket and history of calls on it, data, transmission schedule and failure pattern", "why_tests_cant": "A stale SENDOK needs a transport failure at the one access that acknowledges it, followed by another call.", "anchors": ["src/tcp.rs: TcpSocket::socket_send", "src/socket.rs: reset_interrupt, has_interrupt"]}
{"id": "C79", "title": "A receive call hands out nothing but the message", "statement": "A receive call stores nothing in the caller's buffer but (a prefix of) the message it delivers; the rest of the buffer keeps its contents.", "quantifier": "every socket and history of calls on it, buffer, arrival schedule and failure pattern", "why_tests_cant": "Stale buffer memory only becomes visible with particular message sizes after particular earlier traffic, possibly of another socket's owner.", "anchors": ["src/udp.rs: UdpSocket::receive (read_length)", "src/tcp.rs: socket_receive", "src/raw_device.rs: read_frame"]}
{"id": "C80", "title": "Bus work is bounded", "statement": "Every call makes at most a constant number of transfers beside its waiting loops, and transfers the caller's data once; a receive call is over after a number of transfers bounded by the size of the RX buffer.", "quantifier": "every bus (including failing ones), argument, state and number of polling rounds; for receiving every arrival schedule", "why_tests_cant": "A worst case is a bound over all answers of the chip, including ones that change during the call.", "anchors": ["src/tcp.rs", "src/udp.rs", "src/raw_device.rs", "src/socket.rs: get_receive_size", "src/uninitialized_device.rs", "src/host/mod.rs: write_settings"]}
{"id": "C81", "title": "Empty datagrams are datagrams", "statement": "A UDP send of an empty buffer transmits one empty datagram, and an empty datagram that was received is reported with length 0 and its sender.", "quantifier": "every bus or every chip history, socket state and buffer", "why_tests_cant": "Tests with payloads do not exercise the loop with nothing to send, and whether any reachable state reports length 0 is a question about all of them.", "anchors": ["src/udp.rs: socket_send_all (while total_sent != send_buffer.len())", "src/udp.rs: socket_receive (read_length = read_max_size.max(header.len))"]}
{"id": "C82", "title": "An initialisation that returned Ok has configured the chip, over either bus", "statement": "If initialize, initialize_advanced or initialize_manual returns Ok, over the three-wire or the four-wire bus, then the chip's registers hold the requested settings, and nothing else was written.", "quantifier": "every chip (arbitrary behaviour byte by byte), MAC and IP settings, mode, with and without the version check", "why_tests_cant": "The frame decoder of a chip without chip select keeps its state between frames, so a wrong length makes later bytes mean something else, depending on the values of the settings.", "anchors": ["src/bus/three_wire.rs: write_frame, WRITE_MODE_MASK", "src/uninitialized_device.rs: initialize_with_host", "src/host/mod.rs: write_settings"]}
{"id": "C83", "title": "WouldBlock means nothing to read, Ok means data", "statement": "A receive call on an open socket with nothing to read returns WouldBlock (as embedded-nal demands), and Ok means at least one byte.", "quantifier": "every bus, socket state and buffer", "why_tests_cant": "Ok(0) looks like success; that it is returned in every state without data, and when else, is a statement about all bus answers.", "anchors": ["src/tcp.rs: socket_receive (return Ok(0))", "src/udp.rs: socket_receive (NbError::WouldBlock)"]}
{"id": "C84", "title": "Datagrams go where and leave from where the program said last", "statement": "As long as no call on a UDP socket returned a bus error, send transmits to the IPv4 address last named in connect or send_to, send_to to the address it is given, and every datagram leaves from the port last named in bind or set_port (49849 plus the socket number if none was).", "quantifier": "every history of calls (including refused and unfinished ones), every environment between and during calls, every chip schedule and socket number below 8", "why_tests_cant": "The address lives in chip registers and in the object, written by four different calls; only a proof covers every order of calls and every interleaving with the chip.", "anchors": ["src/udp.rs: set_destination, socket_send_to, connect, bind, set_source_port", "src/socket.rs: set_source_port, set_destination_ip, set_destination_port"]}
{"id": "C85", "title": "Slow and adaptive chips show nothing new", "statement": "A program cannot tell a chip that takes up commands at any time before the next access to the socket, in an environment that picks events, moments and failing transactions in the light of everything so far, from a chip that executes commands at once under some fixed schedule and fault plan of the same kinds; every theorem over all schedules and fault plans therefore holds for it.", "quantifier": "every program (initialisation, calls on any number of sockets, raw device), every adaptive environment and memory of it, every initial chip", "why_tests_cant": "The environments are arbitrary functions of the past; the schedule is constructed from the whole run (a prophecy), which no run can test.", "anchors": ["src/device.rs: all calls", "src/tcp.rs", "src/udp.rs", "src/raw_device.rs", "src/socket.rs: command"]}
{"id": "C86", "title": "Commands are known to be taken up before the socket is used again", "statement": "After writing a command the driver makes sure that the chip has taken it up (Sn_CR reads 0) before results of that command matter, so that receive never returns bytes twice or bytes nobody sent.", "quantifier": "every program, every bus, every chip that takes arbitrarily long to take up a command", "why_tests_cant": "Chips take up commands within a few clock cycles on the bench; the guarantee is about every delay.", "anchors": ["src/socket.rs: command", "src/tcp.rs: socket_receive", "src/udp.rs: receive"]}
{"id": "C87", "title": "Registers, commands, interrupts and modes are numbered as in the datasheet", "statement": "All register constants (used or not) are the offsets of the datasheet and registers do not overlap; commands, protocols and status codes are those of the datasheet and distinct; every socket interrupt is its bit of Sn_IR; a PHY operation mode is encoded in OPMDC and decoded to itself.", "quantifier": "every constant, every value of the enums, every bit", "why_tests_cant": "Most constants are never reached by a test, and an address off by one only shows as corrupt neighbours on hardware.", "anchors": ["src/register.rs"]}
{"id": "C88", "title": "Only what was handed over reaches the peer, whatever transfers fail", "statement": "After connect, in any history of send and receive calls that end in any way (bus errors anywhere), the bytes transmitted or committed for transmission are, in order, those of the send calls: of a call that returned Ok(k) the first k bytes, of one that failed on the bus nothing or what it was about to send, of NotConnected nothing; and nothing else.", "quantifier": "every history of calls, every schedule of chip events, every placement of bus failures, every payload and buffer", "why_tests_cant": "The states between a failed transfer and the next call are never on a happy path; every failing transaction of every call in every history matters.", "anchors": ["src/tcp.rs: socket_send, socket_receive", "src/socket.rs"]}
{"id": "C89", "title": "Closing a TCP connection is orderly", "statement": "A program that sends data successfully and then closes the connection has all of the data transmitted, and the chip is told to disconnect from the peer (DISCON) before the socket is closed.", "quantifier": "every program on every bus (DISCON); every history of calls on a connection, every schedule and fault plan (data)", "why_tests_cant": "That no program ever makes the driver issue DISCON is a statement about all histories; data loss depends on chip timing.", "anchors": ["src/tcp.rs: close, socket_send", "src/device.rs: release_socket", "src/socket.rs: Command"]}
{"id": "C90", "title": "A packet carries the data of one call, to that call's destination, whatever transfers fail", "statement": "In any history of UDP send/send_to (MACRAW write_frame) calls that end in any way, every packet on the wire carries data of a single call only, and a datagram goes to that call's destination; no byte leaves that was not handed over.", "quantifier": "every history of calls after bind, connect or initialize_macraw, every schedule of chip events, every placement of bus failures, every payload and destination", "why_tests_cant": "Which bytes are left in the TX buffer by a failed call, and what the next call makes of them, depends on where in which transaction the bus failed; tests do not inject failures at every transaction of every history.", "anchors": ["src/udp.rs: socket_send, socket_send_all, socket_send_to, block_send_command", "src/raw_device.rs: write_frame", "src/cursor.rs: TxCursor"]}
{"id": "C91", "title": "Handles cannot be confused", "statement": "However a client treats its handles within safe Rust - writing to the public index of a raw socket, keeping handles when it takes the device apart with release and initialises again, using handles of another device - no two handles it holds have the same slot, and releasing never panics.", "quantifier": "every history of API calls, renumberings, re-initialisations and foreign handles, every bus", "why_tests_cant": "Tests exercise the documented use; the claim is about every sequence in which handles and devices are mixed, and the double hand-out shows only some allocations later.", "anchors": ["src/socket.rs:9 (pub index)", "src/device.rs: State::socket, release_socket, Device::release, take_socket", "src/udp.rs: close", "src/tcp.rs: close"]}
{"id": "C92", "title": "The network settings last", "statement": "Whatever a client does with its device after a successful initialisation, the chip keeps the MAC address, IP address, gateway and subnet mask it was initialised with.", "quantifier": "every program of calls on any number of sockets, every schedule of chip events, every placement of bus failures, every settings", "why_tests_cant": "It is about every program; settings registers are written at initialisation only and tests do not read them back after arbitrary histories with failing calls.", "anchors": ["src/device.rs: reset_device, set_mode, set_retry_timeout, set_retry_count", "src/host/manual.rs: refresh", "src/uninitialized_device.rs: initialize_advanced"]}
{"id": "C93", "title": "A program that sleeps until the interrupt misses no frame", "statement": "A MACRAW program enables the RECV interrupt, and answers an interrupt with clear_interrupts followed by read_frame until that returns 0. From then until it clears interrupts again, whatever else it does on the device, the interrupt pin is asserted while a received frame waits in the chip.", "quantifier": "every history of the device, every schedule of arrivals (also between any two SPI bytes of the calls), every placement of bus failures, every interrupt mask that contains RECV", "why_tests_cant": "A lost wake-up needs a frame to arrive between two particular SPI bytes of the handler; tests on a mock bus have no arrivals, tests on hardware meet the window by luck.", "anchors": ["src/raw_device.rs: enable_interrupts, clear_interrupts, read_frame, write_frame", "src/socket.rs: reset_interrupt, set_interrupt_mask, get_receive_size"]}
{"id": "C94", "title": "Interrupts are acknowledged only after they were seen", "statement": "TCP send and receive, UDP send, send_to and receive write Sn_IR of their socket only to clear a single one of RECV, TIMEOUT and SENDOK, and only if a read of Sn_IR that succeeded, with no write to Sn_IR in between, showed it set. No other write runs over Sn_IR.", "quantifier": "every bus and chip behaviour, every placement of failures, every argument, every outcome (also calls that loop or panic)", "why_tests_cant": "Clearing a bit that was not seen loses an event only if the chip sets it in just that moment.", "anchors": ["src/socket.rs: has_interrupt, reset_interrupt", "src/tcp.rs: socket_send, socket_receive", "src/udp.rs: try_flush_tx, socket_receive"]}
{"id": "C95", "title": "A buffer is written to a TCP connection in finitely many sends", "statement": "A client that calls the TCP send with the rest of its data until nothing is left ends, all calls having returned Ok, if transfers do not fail, the connection stays, sends are confirmed, and again and again at least one byte is transmitted and one acknowledged. Exactly the data was put at the end of what the peer has been and will be sent. If the TX buffer is full and nothing is acknowledged any more, every send that returns Ok accepts nothing and the loop never succeeds.", "quantifier": "every buffer, every socket, every history of calls after connect, every schedule of network events (also between the two bytes of the free size)", "why_tests_cant": "The free size is read in two bytes while acknowledgements arrive: it can be misread as 0 although there is room. Whether the loop still ends depends on the timing of an unbounded run.", "anchors": ["src/tcp.rs: socket_send", "src/socket.rs: get_tx_free_size"]}
{"id": "C96", "title": "A wanted number of bytes is read from a TCP connection in finitely many receives", "statement": "A client that calls the TCP receive for the rest of the bytes it wants until it has them all ends, all calls having returned Ok, with exactly the next bytes of the stream, if transfers do not fail, the connection stays, and the peer tries the next byte again and again. (False: if the RX buffer fills up between the RECV command and the clearing of the RECV interrupt, no further byte can arrive, RECV is never raised again, and every later receive returns 0. Proved: this is the only way to fail, and it takes that the whole RX buffer is filled within a few SPI bytes; if bytes come more slowly, every wanted number of bytes is read.)", "quantifier": "every number of bytes, every socket, every history of calls after connect, every schedule of network events in which RECV is raised only for bytes that arrive", "why_tests_cant": "Needs a byte to arrive between two SPI transactions of one call with an otherwise full buffer, and then an unbounded wait: a test can observe neither all timings nor that the loop never ends.", "anchors": ["src/tcp.rs: socket_receive", "src/socket.rs: get_receive_size", "src/socket.rs: reset_interrupt"]}
{"id": "C97", "title": "Blocking until a packet arrives ends", "statement": "A program that repeats the UDP receive while it returns WouldBlock (nb::block!), or the MACRAW read_frame while it returns 0, ends with the oldest queued packet, or the first that arrives if none was queued, if transfers do not fail, the socket stays open, and packets that fit into the RX buffer keep coming. (True of MACRAW. False of UDP: a datagram stored during a receive can be left unannounced; if those that come afterwards do not fit beside it, RECV is never raised again. Proved of UDP: the loop ends if something is announced, or there is room for the largest datagram that comes.)", "quantifier": "every socket, every history of calls after open, every schedule of network events, every buffer (UDP: not empty, and large enough for the payloads of the datagrams that wait or come)", "why_tests_cant": "Needs a packet to arrive between two SPI transactions of one call and then an unbounded wait; a test can observe neither all timings nor that the loop never ends.", "anchors": ["src/udp.rs: receive", "src/raw_device.rs: read_frame", "src/socket.rs: get_receive_size", "src/socket.rs: reset_interrupt"]}
{"id": "C98", "title": "Nothing is carried over from one use of a socket to the next", "statement": "Bytes, datagrams and frames delivered after a TCP connect, a UDP bind or connect, or initialize_macraw arrived after that call was made, even if the hardware socket still held unread data of an earlier connection, bound socket or raw device; and what is transmitted after it is what was given to the calls since then, apart from data committed before the call, which may still leave while the call is closing the old socket.", "quantifier": "every state of the chip before the call (any protocol, any unread or untransmitted data), every socket, every schedule of network events and transfer failures, every later history of calls", "why_tests_cant": "Needs leftover data in the chip's buffers and pointers at arbitrary positions, with events between any two SPI bytes of the opening call; a test sees only the leftovers it creates.", "anchors": ["src/tcp.rs: open", "src/tcp.rs: socket_connect", "src/udp.rs: open", "src/udp.rs: set_port", "src/raw_device.rs: new", "src/uninitialized_device.rs: initialize_macraw"]}
{"id": "C99", "title": "Trouble passes: opening again restores working order", "statement": "Once transfers stop failing and the network behaves, opening a socket again (connect, bind, initialize_macraw, initialize) returns Ok and everything given to the calls after it is transmitted to the address given, whatever happened before: transfers that failed half-way through any call, calls given up, timeouts, lost packets, other uses of the socket. How a program goes on depends on the state it has reached and on what happens from then on only.", "quantifier": "every state of the chip and every state of the socket object (for UDP: not last used for TCP, no timeout due), every schedule and fault plan that is well-behaved from that state on, every sequence of data", "why_tests_cant": "A failure can strike at any byte of any transfer of any call, in any state; a test injects a few and checks a few ways of going on.", "anchors": ["src/udp.rs: open", "src/udp.rs: set_destination", "src/udp.rs: connect", "src/tcp.rs: connect", "src/raw_device.rs: new", "src/uninitialized_device.rs: initialize_with_host"]}
{"id": "C100", "title": "The accessors of a socket do what their names say", "statement": "Every register method of Socket makes exactly one transfer. A setter writes the register it is named after with its argument, most significant byte first, and changes no other register, no other socket and no common register, also when the transfer breaks off (then a first part of the bytes is written). A getter returns the number in its register. has_interrupt tells whether the flag is set, reset_interrupt clears that flag and no other. What a pointer setter wrote is what the getter of the same name returns until something else writes it.", "quantifier": "every bus; every state of the chip, schedule of events and fault plan; every socket, argument and register", "why_tests_cant": "Tests of the crate check two constants and no register traffic; that nothing else changes quantifies over all the memory of the chip and all events in between.", "anchors": ["src/socket.rs: set_mode", "src/socket.rs: reset_interrupt", "src/socket.rs: has_interrupt", "src/socket.rs: set_source_port", "src/socket.rs: set_destination_ip", "src/socket.rs: set_destination_port", "src/socket.rs: get_tx_read_pointer", "src/socket.rs: set_tx_read_pointer", "src/socket.rs: get_tx_write_pointer", "src/socket.rs: set_tx_write_pointer", "src/socket.rs: get_rx_read_pointer", "src/socket.rs: set_rx_read_pointer", "src/socket.rs: set_interrupt_mask", "src/socket.rs: get_tx_free_size", "src/socket.rs: get_status", "src/socket.rs: command"]}
{"id": "C101", "title": "The ring buffer cursors read and write consecutive bytes", "statement": "A receive cursor behaves like a position in the list of queued bytes: read and read_upto return as many bytes as asked for or all that are left, in order and without gaps or repetition, and skip passes over them; a call makes at most one transfer; until commit nothing is released to the chip, whatever fails, and commit releases exactly the bytes passed. A transmit cursor appends: each write is taken whole, if there is room for it, or not at all; until commit nothing leaves and the write pointer is not touched, and commit makes one packet of all the bytes taken, in order.", "quantifier": "every bus, cursor, buffer and list of calls; every state of the chip, schedule of events (data may arrive during every transfer) and fault plan", "why_tests_cant": "The crate has no tests of its cursors; lists of calls, ring positions, buffer lengths and interleavings with arriving data are unbounded.", "anchors": ["src/cursor.rs: RxCursor::new", "src/cursor.rs: RxCursor::read", "src/cursor.rs: RxCursor::read_upto", "src/cursor.rs: RxCursor::skip", "src/cursor.rs: RxCursor::commit", "src/cursor.rs: TxCursor::new", "src/cursor.rs: TxCursor::write", "src/cursor.rs: TxCursor::commit"]}
{"id": "C102", "title": "A connected UDP socket hands out only datagrams of its peer", "statement": "After connect with address a, as in the usual socket API, receive returns only datagrams whose source is a; datagrams of others do not displace those of a.", "quantifier": "every socket, chip state, schedule of arriving datagrams, fault plan and list of calls", "why_tests_cant": "The crate has no test with two senders; who sends what, in which order, is up to the network and unbounded.", "anchors": ["src/udp.rs: UdpSocket::receive", "src/udp.rs: connect"]}
{"id": "C103", "title": "A TCP connection is not mistaken for another one of the program", "statement": "Two connections of a program to the same server, held at the same time or made one after the other, use different local ports, so that neither peer nor network can mistake one for the other.", "quantifier": "every history of API calls, every bus, every pair of sockets and of connect calls", "why_tests_cant": "Tests do not look at the traffic of two connects; which sockets a program holds and gives back in which order is unbounded.", "anchors": ["src/tcp.rs:231-244 connect", "src/device.rs:56-70 socket, release_socket"]}
{"id": "C104", "title": "A chip that lost its state is noticed", "statement": "When the chip fell back to its reset state behind the program's back (drop of supply voltage, pulse on the reset pin), calls on sockets opened before tell the program by an error instead of hanging or reporting success, nothing is sent meanwhile, and opening the socket again makes it work as before.", "quantifier": "every chip state before the loss, every list of calls after it, every activity of the network, every pattern of failing transfers", "why_tests_cant": "Tests do not power-cycle the chip; the calls that follow and what the program objects remember are unbounded.", "anchors": ["src/tcp.rs:140-217", "src/udp.rs:115-139 set_destination", "src/udp.rs:141-296 socket_send_all, socket_send, block_send_command, try_flush_tx", "src/udp.rs:325-397 socket_receive", "src/raw_device.rs:91-140"]}
{"id": "C105", "title": "UDP sockets in use have different local ports", "statement": "Of the UDP sockets a program holds at any time, no two have the same local port, so that it is determined which socket gets a datagram; the port a socket is opened with is the one the object reports.", "quantifier": "every list of API calls, every bus, every pair of sockets", "why_tests_cant": "Histories of calls and the choice of ports are unbounded, and every outcome of every transfer is possible on the way.", "anchors": ["src/udp.rs:73-83 UdpSocket::new", "src/udp.rs:104-113 set_port", "src/udp.rs:532-536 bind", "src/udp.rs:492-503 connect"]}
{"id": "C106", "title": "A reset of the chip in the middle of a call is noticed", "statement": "If the chip is reset (supply drop, reset pin) between any two transactions of a send or receive on a TCP or UDP socket, the program is told: the call returns an error, and so does every later call on the socket.", "quantifier": "every set of reset moments, every call, every chip state, every schedule of network events, every failure of transfers, every list of later calls", "why_tests_cant": "A reset can fall between any two of unboundedly many transactions, and be repeated; tests can hit a few of these moments.", "anchors": ["src/tcp.rs:144-178 socket_send", "src/tcp.rs:180-217 socket_receive", "src/udp.rs:141-296 socket_send_all, socket_send, block_send_command, try_flush_tx", "src/udp.rs:304-313 socket_send_to", "src/udp.rs:325-397 socket_receive"]}
{"id": "C107", "title": "Commands are given only in states in which the chip takes them", "statement": "In every call on a TCP or UDP socket, each write to the command register is a single command, and one that fits the socket: OPEN after CLOSE and after the mode was set to the protocol of the call, CONNECT after such an OPEN or after the status INIT was read, SEND and RECV after the status ESTABLISHED (TCP) or UDP was read, with no command in between; CLOSE at any time. So a chip that silently ignores commands in the wrong state ignores one only if the status changed after the driver had looked.", "quantifier": "every bus, every answer of the chip, every failure of transfers, every call and argument; every sequence of calls on all sockets, every schedule of network events", "why_tests_cant": "The chip ignores a misplaced command without an error, and whether one is misplaced depends on the answers of the chip and on the failures before it; tests can try a few of these.", "anchors": ["src/tcp.rs:46-218 TcpSocket", "src/udp.rs:72-413 UdpSocket", "src/socket.rs:57-61 get_status", "src/socket.rs:175-183 command", "src/register.rs:254-274 Command"]}
{"id": "C108", "title": "A chip that stops answering is noticed", "statement": "If the chip stops answering (power lost, wire broken), so that every byte read from then on is 0x00 or every byte is 0xFF and every write is lost without an SPI error, the program is told: the call during which this happens, and every later call, returns an error instead of Ok, and none waits forever.", "quantifier": "every bus, every moment at which the chip stops within any sequence of calls on any sockets, every byte read from then on, every later call and argument", "why_tests_cant": "The SPI transfers succeed all the time, so only the meaning of the bytes can tell; the moment at which the chip stops ranges over every transfer of every call, and a call that waits forever cannot be told from a slow one.", "anchors": ["src/tcp.rs:85-138 socket_connect", "src/tcp.rs:140-217 socket_is_connected, socket_send, socket_receive", "src/udp.rs:85-139 open, set_destination", "src/udp.rs:200-248 socket_send", "src/udp.rs:325-397 socket_receive", "src/uninitialized_device.rs:91-105 initialize_with_host", "src/uninitialized_device.rs:107-119 initialize_macraw", "src/raw_device.rs:91-140 read_frame, write_frame"]}
{"id": "C109", "title": "A UDP client gets the answer to each question", "statement": "A client connects a UDP socket and then, again and again, sends a question with block!(send) and waits for the answer with block!(receive). If every question leaves the chip and is answered by a datagram that fits into the RX buffer, every round returns Ok. If nothing but the answers comes, each round delivers the answer to its own question; if further datagrams come, such as an answer that comes twice, the datagrams are delivered in the order in which they came, and no answer is lost.", "quantifier": "every schedule of chip events on which packets leave and the socket stays open, every socket that UDP calls made before, every number of rounds, every question, answer and non-empty buffer that holds the datagrams, every time at which the answer comes", "why_tests_cant": "The answer may come at any transfer, even while the question is still being sent or while receive is busy, and the outcome of a round depends on what every earlier round left behind in the chip.", "anchors": ["src/udp.rs:115-139 set_destination", "src/udp.rs:141-296 socket_send_all, socket_send, block_send_command, try_flush_tx", "src/udp.rs:325-397 socket_receive", "src/udp.rs:492-518 connect, send, receive"]}
{"id": "C110", "title": "A TCP client gets the response to each request", "statement": "A client connects a TCP socket and then, again and again, sends a whole request and reads a response of known length with a loop of receive calls. If the connection stays, the peer takes every request and answers it with a response of that length that fits into the RX buffer, every round ends and delivers exactly the response to its own request, whatever pieces the response comes in.", "quantifier": "every schedule of chip events on which the connection stays and the peer takes what is sent, every number of rounds, every request, response and length, every time at which the response comes and every division into pieces", "why_tests_cant": "The pieces may come at any transfer, also while the request is still being sent or while receive is busy with an earlier piece; a client that waits forever cannot be told from a slow peer.", "anchors": ["src/tcp.rs:85-138 socket_connect", "src/tcp.rs:144-178 socket_send", "src/tcp.rs:180-217 socket_receive", "src/tcp.rs:231-261 connect, send, receive"]}
{"id": "C111", "title": "A UDP server answers each request to the client that sent it", "statement": "A server opens a UDP socket and then, again and again, waits for a datagram and sends an answer to the origin it is told. Whatever the rounds that return Ok, the packets that leave the socket are exactly the answers, in the order in which the requests arrived, each to the address and port its own request came from, and no request is answered twice. If transfers do not fail, the socket stays open, packets leave and a datagram comes, the round ends with Ok.", "quantifier": "every bus schedule and fault plan, every number of rounds, every function from origin and received bytes to answers, every buffer, any use of other sockets and passage of time in between", "why_tests_cant": "Whether an answer can go to the previous client depends on the destination remembered by the object and the one in the chip over the whole history of clients; tests try a few orders of clients.", "anchors": ["src/udp.rs:85-139 open, set_port, set_destination", "src/udp.rs:141-190 socket_send_all", "src/udp.rs:304-313 socket_send_to", "src/udp.rs:325-397 socket_receive", "src/udp.rs:510-518 receive", "src/udp.rs:532-550 bind, send_to"]}
{"id": "C112", "title": "A UDP echo server sends back what it was sent", "statement": "A server that sends the bytes reported by receive back to the origin sends back to every client exactly the payload of its datagram, and nothing else.", "quantifier": "every schedule and fault plan, every number of rounds, every datagram and buffer", "why_tests_cant": "What else is sent depends on which other datagrams wait and on what was in the RX memory before; a test with one client and zeroed memory shows padding at most.", "anchors": ["src/udp.rs:85-139 open, set_port, set_destination", "src/udp.rs:141-190 socket_send_all", "src/udp.rs:304-313 socket_send_to", "src/udp.rs:325-397 socket_receive", "src/udp.rs:510-518 receive", "src/udp.rs:532-550 bind, send_to"]}
{"id": "C113", "title": "A program that answers frames on a MACRAW device answers every one, once and in order, and never stops", "statement": "A program waits until read_frame brings a frame, and sends an answer with write_frame, again and again. If transfers do not fail, the chip sends what it is told to send, frames that are not empty and fit into the RX buffer keep coming, the buffer is not empty, and the answers have 1 to 16384 bytes, then it ends any number N of rounds; it has then sent N answers and nothing else, namely to the N oldest frames among those queued at the beginning and those that came since, one to each, in order of arrival; each answer is made of the frame in as far as the buffer holds it; and all other frames are queued.", "quantifier": "every history of calls after the device is opened, every schedule of network events and SPI timing, every function from frames to answers, every buffer, every number of rounds", "why_tests_cant": "Frames may arrive between any two SPI bytes, also while an answer is sent; the number of rounds is unbounded, and the positions in the buffers wrap around again and again.", "anchors": ["src/raw_device.rs:91-115 read_frame", "src/raw_device.rs:124-140 write_frame", "src/cursor.rs: read_upto", "src/cursor.rs: skip", "src/socket.rs: get_receive_size"]}
{"id": "C114", "title": "A UDP server goes on answering as long as requests come", "statement": "A server opens a UDP socket and then, again and again, waits for a datagram and sends an answer to the origin it is told. If transfers do not fail, the socket stays open, packets leave, and datagrams that fit into the RX buffer keep coming, then every round ends with an answer, for ever. (False: while one request is read another is stored, and its announcement is cleared with that of the first; if no request that comes fits beside it, the server waits for ever with a request in the RX buffer. Proved: a round ends exactly if something is announced or something comes that fits; for any number of rounds, either all end or the server is stuck in this way; and it never stops if what comes during one receive leaves room for the next request.)", "quantifier": "every history of rounds after open, every schedule of network events and SPI timing, every function from origin and received bytes to answers, every number of rounds, every non-empty buffer that holds the datagrams", "why_tests_cant": "The server stops only if a datagram arrives between two particular SPI transactions and is large enough; the number of rounds is unbounded, and that it never goes on again cannot be observed.", "anchors": ["src/udp.rs:325-397 socket_receive", "src/udp.rs:510-518 receive", "src/udp.rs:532-550 bind, send_to", "src/socket.rs: get_receive_size", "src/socket.rs: reset_interrupt"]}
{"id": "C115", "title": "A UDP receiver gets every datagram if they come slowly enough", "statement": "A program opens a UDP socket and waits for one datagram after the other (nb::block! around receive). If transfers do not fail, the socket stays open, nothing waits or is announced at first, and the datagrams that come fit into the RX buffer, have payloads that fit into the program's buffer, and come at least buf.len() + 20 SPI bytes apart, then the program gets all of them, each one once and in order, each with its origin and its whole payload. (Without the distance it is false: datagrams are lost, see C42, and the program can wait for ever, see C97.)", "quantifier": "every socket, every history of calls after open, every number of datagrams with any contents, every schedule of network events for the other sockets and every timing of the datagrams at this distance", "why_tests_cant": "The claim is about every moment, relative to the SPI transactions of the calls, at which a datagram may arrive, and about any number of datagrams; a test observes a few timings.", "anchors": ["src/udp.rs:325-397 socket_receive", "src/udp.rs:510-518 receive", "src/socket.rs: get_receive_size", "src/socket.rs: has_interrupt", "src/socket.rs: reset_interrupt"]}
{"id": "C116", "title": "A TCP client gets a response of known length in pieces if each piece comes some time after the one before", "statement": "A program connects a TCP socket and then calls receive until it has as many bytes as it expects. If transfers do not fail, the connection stays, nothing waits or is announced at first, and the bytes come in pieces that fit into the RX buffer, each at least 12 SPI bytes more than its length before the next one, then the loop ends, the program has exactly these bytes in order, and nothing waits or is announced afterwards. (Without the distance it is false: the program can wait for ever for bytes that have arrived, see C96 and C110.)", "quantifier": "every socket, every history of calls after connect, every number of pieces with any contents, every schedule of network events for the other sockets and every timing of the pieces at this distance", "why_tests_cant": "The claim is about every moment, relative to the SPI transactions of the calls, at which a piece may arrive, and about any number of pieces; a test observes a few timings.", "anchors": ["src/tcp.rs:180-217 socket_receive", "src/tcp.rs:231-261 connect, send, receive"]}
{"id": "C117", "title": "A TCP client gets a response that comes in any pieces at any times, if it fits and the last piece comes after a pause", "statement": "A program connects a TCP socket, possibly sends a request, and then calls receive until it has as many bytes as it expects. If transfers do not fail, the connection stays, what waits and what comes up to some piece fits into the RX buffer, and before that piece nothing comes for 16 SPI bytes more than the size of the RX buffer, then the loop ends and the program has exactly the expected number of these bytes, in order. The pieces before the pause may come at any times, also while a call is running. With a request, the pause begins after it has been sent, or the last piece has come by then. (Without the pause it is false, see C96 and C110.)", "quantifier": "every socket, every history of calls after connect, everything that waits at first, every number of pieces at any times before the pause, and every schedule of other network events", "why_tests_cant": "The claim is about every interleaving of any number of arrivals with the SPI transactions of the calls; a test observes a few timings.", "anchors": ["src/tcp.rs:180-217 socket_receive", "src/tcp.rs:231-261 connect, send, receive", "src/tcp.rs:144-178 socket_send"]}
{"id": "C118", "title": "Sending and connecting take no longer than the network does", "statement": "If what is committed leaves (or is dropped) within L SPI bytes, a UDP send is over after L + 20 bytes for each datagram it makes, the data, and 3 bytes (send_to: 9 bytes); if moreover SENDOK is raised within L' bytes and nothing is dropped, writing a MACRAW frame that fits the TX buffer is over after L + L' + 9 bytes and the frame; if SENDOK is raised within L bytes, a TCP send is over after L + 10 bytes and the data; if the chip comes to a verdict within L bytes, TCP connect is over after L + 29 bytes. This holds however the call ends.", "quantifier": "every reachable state of the socket, data, bound L, schedule with these bounds, fault pattern, and number of rounds the caller would wait", "why_tests_cant": "A worst case over all moments at which the network can act relative to the polling of the driver.", "anchors": ["src/tcp.rs:85-138 socket_connect", "src/tcp.rs:144-178 socket_send", "src/udp.rs:141-190 socket_send_all", "src/udp.rs:200-248 socket_send", "src/udp.rs:251-296 block_send_command, try_flush_tx", "src/udp.rs:304-313 socket_send_to", "src/raw_device.rs:124-140 write_frame"]}
{"id": "C119", "title": "A UDP server answers every request if they come slowly enough", "statement": "A program waits for a datagram, sends its answer to the origin it is told, and waits for the next. Nothing waits, is announced or has timed out when it begins, and its buffer is not empty. If transfers do not fail, the socket stays open, nothing is dropped and what is committed leaves within L SPI bytes, and the requests fit into the RX buffer and their payloads into the program's buffer, and each comes at least b + 20 + p * (L + 20) + m + 9 SPI bytes after the one before, where b is the length of the buffer, m that of the longest answer and p the number of datagrams it takes, and nothing else comes, then the program answers all of them, each one once, in order and to where it came from. After each round nothing waits and nothing is announced.", "quantifier": "every socket, every history of calls since it was opened, every number, contents and timing of the requests at this distance, every function that makes the answers, every schedule of other network events", "why_tests_cant": "The claim is about every timing of any number of requests relative to the SPI transactions of the calls, and about every answer.", "anchors": ["src/udp.rs:325-397 socket_receive", "src/udp.rs:510-518 receive", "src/udp.rs:304-313 socket_send_to", "src/udp.rs:141-190 socket_send_all", "src/udp.rs:532-550 bind, send_to", "src/socket.rs: get_receive_size", "src/socket.rs: reset_interrupt"]}
{"id": "C120", "title": "A program that looks for datagrams often enough gets every one, whatever else it does", "statement": "A program calls receive on a UDP socket again and again with a buffer of m bytes, each time at most G SPI bytes after the call before has ended; in the meantime it sends from the socket and does anything that does not concern it. If transfers do not fail, the socket stays open with nothing waiting or announced at the start, and nothing comes to it but datagrams that fit into its RX buffer and the program's, at least G + m + 20 SPI bytes apart, then every call ends within m + 20 SPI bytes with Ok or WouldBlock, and after each call the program has got exactly the datagrams that have come, each one once and in order. A program that looks at several sockets in turn, any number of times, gets so all that comes to any of them if the datagrams for the same socket come at least two rounds and one call apart.", "quantifier": "every socket, every history of calls since it was opened, every number, order and timing of the calls at these distances, everything else the program does in the meantime, every number, contents and timing of the datagrams at this distance, every number of sockets and rounds", "why_tests_cant": "The claim is about every timing of any number of datagrams relative to any number of calls and to whatever the program does between them.", "anchors": ["src/udp.rs:325-397 socket_receive", "src/udp.rs:510-518 receive", "src/udp.rs:304-313 socket_send_to", "src/udp.rs:141-190 socket_send_all", "src/socket.rs: get_receive_size", "src/socket.rs: has_interrupt", "src/socket.rs: reset_interrupt"]}
{"id": "C121", "title": "A MACRAW program that reads often enough loses no frame", "statement": "A MACRAW device has q frames queued, after any history of calls. From then on frames come on average at most once in P SPI bytes, in bursts of at most k more, and q + k + 2 of them (with their two length bytes) fit into the RX buffer. A program calls read_frame again and again, each call ending at most P SPI bytes after the call before; in the meantime it sends frames, sets and clears interrupts, and uses the bus for anything that does not concern socket 0. If transfers do not fail, then no frame is ever lost: at every time before the next call is due, the frames that were queued at first and those that have come since are, in order, those that the calls returned, each one once, followed by those that are queued, and at most q + k + 2 are queued. A call with a buffer of m bytes returns Ok within 4k + m + 15 SPI bytes, so a program that only reads, with a buffer of at most P - 4k - 15 bytes, any number of times, loses nothing. If no frame is empty and a call with a nonempty buffer returns 0, then the program has got every frame that came before that call.", "quantifier": "every history before, every schedule of frames and other events at this rate, every number, timing and buffer size of the calls at this distance, everything else the program does in the meantime, every number of rounds", "why_tests_cant": "The claim is about every timing of any number of frames relative to any number of calls; a lost frame shows only if the buffer fills up, which depends on the whole history.", "anchors": ["src/raw_device.rs:91-115 read_frame", "src/raw_device.rs: write_frame", "src/cursor.rs: RxCursor::new", "src/cursor.rs: commit", "src/socket.rs: get_receive_size"]}
{"id": "C122", "title": "A MACRAW program answers every frame if they come slowly enough", "statement": "A program on a MACRAW device looks for a frame, with a buffer of b bytes, sends an answer of 1 to a bytes (at most 16384) if it got one, and looks again, any number of times. When it begins, q frames are queued. If transfers do not fail, what is committed leaves within L SPI bytes and is not dropped, SENDOK is raised within L' SPI bytes, and frames come on average at most once in P SPI bytes, in bursts of at most k more, where P is at least 4k + b + L + L' + a + 24 and q + k + 2 frames fit into the RX buffer, then every call returns Ok, no frame is lost, and the program answers the frames that were queued and those that come, each one (that is not empty) once and in order; at most q + k + 2 frames are still queued when it ends, and every answer got out.", "quantifier": "every history of calls before, every schedule of frames and other events at this rate, every function that makes the answers, every number of rounds", "why_tests_cant": "The claim is about every timing of any number of frames relative to the SPI transactions of the calls, and about every answer.", "anchors": ["src/raw_device.rs:91-115 read_frame", "src/raw_device.rs:124-140 write_frame", "src/cursor.rs: RxCursor::new", "src/cursor.rs: TxCursor::commit", "src/socket.rs: get_receive_size"]}
{"id": "C123", "title": "No frame waits long", "statement": "A MACRAW device has q frames queued, after any history of calls. From then on frames come on average at most once in P SPI bytes, in bursts of at most k more, and q + k + 2 of them fit into the RX buffer. If transfers do not fail and a program calls read_frame again and again, each call ending at most P SPI bytes after the one before, whatever else it does meanwhile, then at every time before the next call is due every frame that came (q + k + 2) P SPI bytes ago or earlier is among those that the calls have returned, and those that were queued at first are if the program began so long ago. A program that answers each frame it gets, as in C122, has sent at the end of every round the answers to all (nonempty) frames that came (q + k + 2) P SPI bytes ago or earlier (and those queued at first), in order, and they got out; as a round takes at least 6 SPI bytes, every frame is answered.", "quantifier": "every history before, every schedule of frames and other events at this rate, every number, timing and buffer size of the calls at this distance, every function that makes the answers, every number of rounds", "why_tests_cant": "The worst delay depends on how bursts of frames fall relative to all the calls before; a test sees some of the timings only.", "anchors": ["src/raw_device.rs:91-115 read_frame", "src/raw_device.rs:124-140 write_frame", "src/cursor.rs: RxCursor::new", "src/socket.rs: get_receive_size"]}
{"id": "C124", "title": "A program that looks for bytes on a TCP connection often enough gets every byte, whatever else it does", "statement": "A program connects a TCP socket and, after any calls, calls receive again and again with buffers of at least l bytes, each time at most G SPI bytes after the call before has ended; in the meantime it sends over the connection and does anything that does not concern the socket. If transfers do not fail, the connection stays, nothing waits or is announced at the start, and nothing comes but pieces of at most l bytes, which fit into the RX buffer, at least G + l + 12 SPI bytes apart, then every call returns Ok within 2 to l + 12 SPI bytes, and after each call the program has got exactly the bytes that have come, in order. A program that only receives, any number of times, has so at its end exactly the bytes that came while it ran. (Without the distance it is false, see C96 and C110.)", "quantifier": "every socket, every history of calls since connect, every number and timing of the calls at this distance, everything sent and everything else done in the meantime, every number, contents and timing of the pieces at this distance", "why_tests_cant": "The claim is about every timing of any number of pieces relative to any number of calls and to whatever the program does between them.", "anchors": ["src/tcp.rs:180-217 socket_receive", "src/tcp.rs:231-261 connect, send, receive", "src/socket.rs: get_receive_size", "src/socket.rs: has_interrupt", "src/socket.rs: reset_interrupt"]}
{"id": "C125", "title": "A program answers every piece that comes on a TCP connection if they come slowly enough", "statement": "A program connects a TCP socket and, after any calls, again and again calls receive with a buffer of at least l bytes and, if bytes come, sends an answer made of them, with one call of send. If transfers do not fail, the connection stays, nothing waits, is announced or is unacknowledged at the start, SENDOK is raised within L' SPI bytes, the peer takes what is sent within L, and nothing comes but pieces of at most l bytes, which fit into the RX buffer, at least 2 (L' + a + 10) + l + 12 + L SPI bytes apart, where a is the length of the longest answer, which fits into the TX buffer, then all calls return Ok, and what the program has sent in any number of rounds are the answers to exactly the pieces that came until its last receive, each one whole, once and in order; r rounds answer everything that came in the first 2 r SPI bytes.", "quantifier": "every socket, every history of calls since connect, every number of rounds, every function that makes the answers, every number, contents and timing of the pieces at this distance, every timing of SENDOK and of the peer within these bounds", "why_tests_cant": "The claim is about every timing of any number of pieces, confirmations and acknowledgements relative to any number of calls, and about every answer.", "anchors": ["src/tcp.rs:180-217 socket_receive", "src/tcp.rs: socket_send", "src/tcp.rs:231-261 connect, send, receive", "src/socket.rs: get_receive_size", "src/socket.rs: get_tx_free_size"]}
{"id": "C126", "title": "A program that serves several sockets in turn, UDP and TCP, answers everything that comes to any of them if it comes slowly enough", "statement": "A program serves several sockets in turn, again and again. On each of its UDP sockets it calls receive and, if a datagram came, sends an answer to where it came from with send_to; on each of its TCP connections it calls receive and, if bytes came, sends an answer with send. If transfers do not fail, the sockets stay open and the connections established, nothing waits, is announced, timed out or unacknowledged at the start, what is sent leaves (UDP) or is confirmed and taken by the peer (TCP) within bounded times, and what comes to each socket fits into its RX buffer and the program's buffer for it and comes at least two rounds plus the time of serving that socket apart, then all calls return Ok or WouldBlock, a round takes at most the sum of the times of serving its sockets, and on every socket everything that came until the program last looked is answered, each datagram or piece once and in order, the answers to the datagrams to where they came from, and nothing else is sent.", "quantifier": "every number and mixture of UDP sockets and TCP connections, every history of calls since they were opened, every number of rounds, every functions that make the answers, every number, contents and timing of datagrams and pieces at these distances", "why_tests_cant": "The claim is about every timing of any number of datagrams, pieces and confirmations on several sockets relative to any number of calls, and about every answer.", "anchors": ["src/udp.rs:325-397 socket_receive", "src/udp.rs:304-313 socket_send_to", "src/udp.rs:141-190 socket_send_all", "src/udp.rs:532-550 bind, send_to", "src/tcp.rs:180-217 socket_receive", "src/tcp.rs: socket_send", "src/tcp.rs:231-261 connect, send, receive", "src/socket.rs: get_receive_size", "src/socket.rs: has_interrupt", "src/socket.rs: get_tx_free_size"]}
{"id": "C127", "title": "What happens before a run starts and after it has ended does not influence it", "statement": "Take any run of calls, on any number of sockets and from any state of the chip, and two plans of what happens on the network and which SPI transfers fail. If the plans are the same from the first to the last byte and transfer of the run, then the run gives the same on both: the same results, the same data in the caller's buffers, and the same end, in the chip and in the driver. This holds for programs that use an initialised device, that initialise the chip themselves, that use MACRAW, and for programs that decide after each transfer how to go on.", "quantifier": "every list of calls, every state of the chip and the driver, every two plans that are the same meanwhile, every adaptive program", "why_tests_cant": "The claim compares every run on every plan with the runs on all plans that differ from it only before and after.", "anchors": ["src/bus/four_wire.rs: FourWire::read_frame", "src/bus/four_wire.rs: FourWire::write_frame", "src/udp.rs:325-397 socket_receive", "src/udp.rs:141-190 socket_send_all", "src/tcp.rs:180-217 socket_receive", "src/tcp.rs: socket_send", "src/socket.rs: get_receive_size", "src/raw_device.rs: read_frame", "src/raw_device.rs: write_frame"]}
{"id": "C128", "title": "If the peer waits before it closes the connection, a program that answers what comes answers everything and then learns of the end from NotConnected", "statement": "A program looks for bytes on a TCP connection again and again and answers each piece, as in C125. The peer sends pieces more than the distance of C125 apart, then waits for the time of two answers and a receive, and then closes the connection (or it is reset). If transfers do not fail, nothing waits or is unacknowledged at the start, and until the end what is sent is confirmed and taken within bounded times, then all calls return Ok until the end; everything the peer ever sent is answered, each piece once, whole and in order, and nothing else is sent; nothing is left unread; and the program learns of the end from a receive that returns NotConnected, not before the end and within two SPI bytes of it, however many rounds it intends to make. A peer that does not wait may lose what it sent: it remains unread in the chip and unanswered (C128_hasty).", "quantifier": "every socket, every history of calls since connect, every number, contents and timing of pieces at these distances, every time of the end, every function that makes the answers, every buffer that is long enough, every number of rounds", "why_tests_cant": "The claim is about every timing of pieces, confirmations and the end of the connection relative to any number of calls, and about every answer.", "anchors": ["src/tcp.rs:180-217 socket_receive", "src/tcp.rs: socket_is_connected", "src/tcp.rs: socket_send", "src/tcp.rs:231-261 connect, send, receive", "src/socket.rs: has_interrupt", "src/socket.rs: get_receive_size", "src/socket.rs: get_tx_free_size"]}
{"id": "C129", "title": "A program that reads a TCP connection until NotConnected gets everything the peer sent, if the peer waits before it closes", "statement": "A program calls receive on a TCP connection until it returns NotConnected, and collects what comes. The peer sends pieces of at most l bytes, which fit into the RX buffer and the program's buffer, at least l + 12 SPI bytes apart, and closes the connection more than l + 12 SPI bytes after it sent the last one. If transfers do not fail and nothing waits at the start, then the program ends, not before the connection does and within two SPI bytes of it, and what it has collected is exactly what the peer sent; nothing is left unread. If the peer closes at once, the program may end as usual without the last bytes, which stay in the chip (C129_hasty).", "quantifier": "every socket, every history of calls since connect, every number, contents and timing of pieces at these distances, every time of the end, every buffer that is long enough", "why_tests_cant": "The claim is about every timing of pieces and of the end of the connection relative to any number of calls.", "anchors": ["src/tcp.rs:180-217 socket_receive", "src/tcp.rs: socket_is_connected", "src/tcp.rs:231-261 connect, send, receive", "src/socket.rs: has_interrupt", "src/socket.rs: get_receive_size"]}
{"id": "C130", "title": "A call that failed before it moved its pointer can simply be made again", "statement": "A call of send, receive, write_frame or read_frame returns an error because a transfer failed, and has not moved the pointer register it works on (for UDP send and write_frame: nothing waits to leave). If from then on transfers do not fail and the socket stays open (and for sending: the network takes what is to be sent), then the same call, made again without opening the socket anew, returns Ok and does what it should have done the first time. TCP: the peer gets the data once, and receive goes on at the byte the failed call should have begun with. UDP and MACRAW: all of the data leaves, and the datagram or frame that waited is the one that comes. The pointer is certainly not moved if the call failed in one of its first transfers: four of TCP send, six of TCP receive, six of UDP send, seven of UDP receive, four of write_frame, four of read_frame. Then nothing of the UDP data or of the frame has left before, so that it leaves once. (C53_refuted and C54_refuted show what happens if the call is repeated after a later failure: data is sent twice, or bytes are lost.)", "quantifier": "every socket, every history of calls before, every transfer that fails and every number of its bytes that were transferred, every data and buffers, every schedule of network events that keeps the socket open", "why_tests_cant": "The claim is about every failing transfer, every history before it, and every behaviour of the network after it.", "anchors": ["src/tcp.rs:180-217 socket_receive", "src/tcp.rs: socket_send", "src/udp.rs: socket_send_all", "src/udp.rs: socket_receive", "src/raw_device.rs: read_frame", "src/raw_device.rs: write_frame", "src/socket.rs: get_receive_size"]}
{"id": "C131", "title": "Any number of calls that fail early do no harm", "statement": "Let any number of calls of send, receive, write_frame and read_frame fail (in any way: error, nothing to do, panic, no end), each after at most so many transfers: four of TCP send, six of TCP receive, six of UDP send, seven of UDP receive, four of write_frame, four of read_frame. Between them there may be calls that return Ok (also of send_to, which may not fail), and anything else that neither sends nor brings data. Then the data of a failed call is not sent and nothing that is queued is taken. TCP, since a connect that returned Ok: the peer has got, or is still to get, the bytes accepted by the send calls that returned Ok and no others; what the receive calls that returned Ok brought is what arrived, without a gap. UDP, since the socket was opened: the packets are the pieces of the data of the sends that returned Ok, to their destinations and in order, and no others; the datagrams brought are different ones, in order of arrival (some may be lost by receive calls that return Ok, see C42). MACRAW, since the device was opened: the packets are the frames for which write_frame returned Ok, each once, in order, and no others; every frame that arrived was brought by one read_frame, or is still queued. With one transfer more all of this is false: the data of the failed call is sent with the next call, or what is queued is skipped.", "quantifier": "every socket, every number and order of calls, every failing transfers, every data and buffers, every schedule of network events", "why_tests_cant": "The claim is about every number of failures in every place, between every other calls, under every behaviour of the network.", "anchors": ["src/tcp.rs:180-217 socket_receive", "src/tcp.rs: socket_send", "src/udp.rs: socket_send_all", "src/udp.rs: socket_receive", "src/raw_device.rs: read_frame", "src/raw_device.rs: write_frame"]}
{"id": "C132", "title": "A send_to that failed early can be made again, any number of times", "statement": "Let any number of calls of UDP send_to fail (in any way), each after at most eight transfers (six if the socket already remembers the address), so that half of the new destination may be in the chip while the socket remembers the old one. Let the client, until a send_to has returned Ok, not use send, and not send to the remembered address unless it is the one tried last; it may receive, try again, or try a third address. Between them there may be all of what C131 allows. Then the packets are the pieces of the data of the sends that returned Ok, each to its own address and in order, and no others; the datagrams brought are different ones in order of arrival. And if from some time on transfers do not fail, the socket stays open and packets leave, then the next send_to for such an address returns Ok and all of its data has left for this address. Without the condition on the address, or with one transfer more, this is false: packets go to the IP address of one peer and the port of another, or data leaves twice.", "quantifier": "every socket, every number and order of calls, every failing transfers, every addresses, data and buffers, every schedule of network events", "why_tests_cant": "The claim is about every number of failures in every place, between every other calls, under every behaviour of the network.", "anchors": ["src/udp.rs: set_destination", "src/udp.rs: socket_send_to", "src/udp.rs: socket_send_all"]}
{"id": "C133", "title": "The bus errors a program sees are the transfers that failed", "statement": "Take any program: an initialisation (static, DHCP or MACRAW) and any calls after it, each as often and in any order as the program likes, on any number of sockets. The bus errors among the results of its calls are exactly the errors of the bus transfers that failed: each is returned once, by one call, in the order in which the transfers were made, and none is swallowed, repeated or made up. Hence, if at most N transfers ever fail, then of any N+1 calls in a row one does not return a bus error, so that a program that repeats a call on bus errors stops repeating.", "quantifier": "every program, every bus and every behaviour of it; on the chip every schedule of network events and every set of failing transfers", "why_tests_cant": "A test exercises some programs with faults injected in some places; this is about every program with failures anywhere, including a program that repeats calls.", "anchors": ["src/udp.rs: socket_send_all", "src/udp.rs: socket_receive", "src/udp.rs: set_destination", "src/tcp.rs: socket_connect", "src/tcp.rs: socket_send", "src/tcp.rs:180-217 socket_receive", "src/raw_device.rs: read_frame", "src/raw_device.rs: write_frame"]}
{"id": "C134", "title": "When early failures end, the next call gets through and nothing is lost or doubled", "statement": "After any history of an opened socket in which calls may have failed any number of times, but early (before the transfers that C131 names), let transfers not fail any more. Then on TCP the data given to send is accepted, and what the peer has got or is to get are exactly the bytes accepted before and this data; receive returns Ok and goes on exactly where the calls that returned Ok had got to. On UDP send returns Ok and its datagrams follow those of the sends that returned Ok; receive with a large enough buffer brings the first datagram queued. On MACRAW write_frame returns Ok and its frame follows those written before; read_frame brings the first frame queued.", "quantifier": "every socket, every history with any number of early failures, every data and buffer, every schedule of network events in which the status stays as it is, the chip confirms, and packets are not lost", "why_tests_cant": "A test can inject some failures in some calls and then make one more; this is about every history, with failures in any calls and any number of them.", "anchors": ["src/tcp.rs: socket_send", "src/tcp.rs:180-217 socket_receive", "src/udp.rs: socket_send_all", "src/udp.rs: socket_receive", "src/raw_device.rs: read_frame", "src/raw_device.rs: write_frame"]}
{"id": "C135", "title": "A call returns the error of a transfer that failed, or gets through", "statement": "After any history of an opened socket in which calls may have failed any number of times, but early (C131), and whatever transfers fail from then on: the next call (TCP send or receive, UDP send, send_to or receive, write_frame, read_frame) ends in one of two ways. Either it returns a bus error, that of one of the transfers it made itself; or it returns Ok and has done all that it should do (C134). There is no third way: no failing transfer makes a call return Ok with something left out, return another error, or wait for ever.", "quantifier": "every socket, every history with any number of early failures, every set of transfers that fail, every data and buffer, every schedule of network events in which the status stays as it is, the chip confirms, and packets are not lost", "why_tests_cant": "A test injects failures in some transfers; this is about every set of failing transfers, and about all that can come of it.", "anchors": ["src/tcp.rs: socket_send", "src/tcp.rs:180-217 socket_receive", "src/udp.rs: socket_send_all", "src/udp.rs: set_destination", "src/udp.rs: socket_receive", "src/raw_device.rs: read_frame", "src/raw_device.rs: write_frame"]}
{"id": "C136", "title": "A call repeated on bus errors is made at most N + 1 times, and is done once", "statement": "Let at most N transfers ever fail. A program makes a call (TCP send or receive, UDP send, send_to or receive, write_frame, read_frame) on an opened socket, after any history with early failures, and makes it again whenever it returned a bus error, early each time (C131). Then no more than N of these calls fail; the next one fails on the bus or returns Ok, and if N have failed it returns Ok; and then what it was to do has been done exactly once: the bytes, datagrams or frame are sent once, after what was sent before, and what is received is what comes next.", "quantifier": "every N, every set of at most N failing transfers, every number of failed attempts, every socket, history, data and buffer, every schedule of network events in which the status stays as it is, the chip confirms, and packets are not lost", "why_tests_cant": "A test injects some failures and repeats a call some times; this is about every number of failures, wherever they are.", "anchors": ["src/tcp.rs: socket_send", "src/tcp.rs:180-217 socket_receive", "src/udp.rs: socket_send_all", "src/udp.rs: set_destination", "src/udp.rs: socket_receive", "src/raw_device.rs: read_frame", "src/raw_device.rs: write_frame"]}
{"id": "C137", "title": "A connect or bind repeated on bus errors opens the socket within N + 1 calls", "statement": "Let at most N transfers ever fail. A program calls TCP connect, UDP connect or UDP bind, and calls it again whenever it returned a bus error. Then no more than N of these calls fail on the bus; the next one fails on the bus or returns Ok, and if N have failed it returns Ok. It does not matter in which of their transfers the attempts failed, unlike for sends and receives (C136). After a UDP connect or bind the socket is open and no timeout is due.", "quantifier": "every N, every set of at most N failing transfers, every number of failed attempts, every socket, address and port, every schedule of network events in which the status is a regular one, the chip answers (TCP) and packets are not lost (UDP), every state of the chip (TCP), every state in which the socket is not set to TCP and no timeout is due (UDP)", "why_tests_cant": "A test injects some failures and repeats a call some times; this is about every number of failures, wherever they are.", "anchors": ["src/tcp.rs:231-244 connect", "src/udp.rs:492-503 connect", "src/udp.rs:532-536 bind"]}
{"id": "C138", "title": "Data sent piece by piece gets through once, in spite of N failed transfers", "statement": "Let at most N transfers ever fail. A program sends data over TCP, always offering what has not been taken yet, and goes on after bus errors; or it sends datagrams with UDP send, or frames with write_frame, each again when the call returned a bus error. The failures are early (C131). Then at every moment: no more than N calls have failed; the peer has got, or is to get, exactly the bytes taken so far (the chip has sent exactly the datagrams or frames for which a call returned Ok), once, in order, after what was sent before; the next call returns Ok or fails on the bus; and once N calls have failed none fails any more, and for TCP sending the rest succeeds and all of the data is there, once.", "quantifier": "every N, every set of at most N failing transfers, every way in which failed and successful calls alternate, every socket, earlier history and data, every schedule of network events in which the status stays as it is, the chip confirms (for TCP: also drains its buffer) and packets are not lost", "why_tests_cant": "A test injects some failures into some calls; this is about every number of failures and of calls, in any order.", "anchors": ["src/tcp.rs: socket_send", "src/udp.rs: socket_send_all", "src/raw_device.rs: write_frame"]}
{"id": "C139", "title": "Data is received once, in order, in spite of N failed transfers", "statement": "Let at most N transfers ever fail. A program calls TCP receive, UDP receive or read_frame again and again, each time with a buffer of its choice, also after bus errors and other errors, all of them early (C131). Then at every moment: no more than N calls have failed on the bus; for TCP, the bytes brought so far followed by those queued are all bytes that arrived, in order; for UDP, the calls brought datagrams in order of arrival, every one a different datagram; for MACRAW, every frame that arrived was brought by one call, in order, or is queued; and if there is something to receive, the next call brings what is next or fails on the bus, and once N calls have failed it does not fail.", "quantifier": "every N, every set of at most N failing transfers, every way in which failed and successful calls alternate, every socket, earlier history and buffers, every schedule of network events (for the next call of TCP and UDP receive: in which the status stays as it is)", "why_tests_cant": "A test injects some failures into some calls; this is about every number of failures and of calls, in any order, with any arrivals in between.", "anchors": ["src/tcp.rs:180-217 socket_receive", "src/udp.rs: socket_receive", "src/raw_device.rs: read_frame"]}
