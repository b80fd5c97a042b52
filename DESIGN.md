# Formal model of kellerkindt/w5500 in Lean 4

## 1. Approach

The crate is a driver: every public operation is a deterministic program that
issues `read_frame` / `write_frame` transfers on a `Bus` and computes a result.
The model keeps exactly that shape.

* `Verif/Model/*` — the crate, function by function, as total computable Lean functions.
  * A `&mut` argument becomes a component of a state that is threaded through; `?` is monadic bind.
  * Outcomes are `Res ε α = ok a | err e | panic | fuel`. `panic` is a Rust panic (failed `assert!`,
    slice index out of range, `unreachable!`, arithmetic overflow in a build with overflow checks).
    Unbounded `loop`/`while` constructs take a fuel argument; `fuel` means "still looping".
    All safety theorems hold for every fuel, hence also for every prefix of a non-terminating run.
  * `u8`, `u16` are `BitVec 8`, `BitVec 16` (wrap-around is real); `usize` is `Nat`; slices are `List U8`.
  * Arithmetic that can overflow takes the build flag `oc` (overflow checks) explicitly.
  * `Bus W E` is an arbitrary implementation of the trait: any state type `W`, any behaviour, any failures.
    Quantifying over it quantifies over all chips, schedules and crash points.
* `Verif/Spec/*` — things that are NOT the crate: the datasheet register map, the SPI frame decoder of the chip
  (variable- and fixed-length mode), the W5500 chip as a state machine with an adversarial schedule
  (network events may happen between any two SPI bytes; transfers may fail), abstract specs (queues, streams).
* `Verif/Proofs/*` — helper lemmas. `Verif/Props/*` — the property theorems, one section per property.
  Concrete cases follow the theorems as `example`s; `Props/Cases1.lean` … `Cases8.lean` apply the theorems that have hypotheses to
  concrete arguments, with the hypotheses proved.

## 2. Trusted base

* Lean 4.33.0 kernel. Axioms: at most `propext`, `Classical.choice`, `Quot.sound` (listed per theorem in section 5).
* The reading of the Rust source into `Verif/Model` (each definition cites file:lines).
* The datasheet facts in `Verif/Spec` (register map, SPI framing, reset values, ring-buffer pointers,
  RECV/SEND/OPEN/CLOSE command effects, write-1-to-clear interrupts). They are not in the repository, except
  where quoted in doc comments.
* External crates: `embedded-hal` (`SpiDevice::transaction` = one chip-select window, `SpiBus` = raw bytes),
  `bit_field` (`get_bit`/`set_bit`, panics on out of range), `derive-try-from-primitive`, `core::net`.

### Not modelled
`defmt`/`Debug` formatting, `ThreeWireError` (never constructed), feature `no-chip-version-assertion`
(modelled as a flag), timing, memory safety (guaranteed by safe Rust), SPI electrical configuration,
TCP/IP inside the chip beyond what the driver can observe.

## 3. Plan per property

Generic (arbitrary bus) = proved for every `Bus W E`. Chip = proved on `Spec.Chip` for every schedule.

| id | model | method |
|----|-------|--------|
| C01 | FourWire over SPI slave decoder | equality of `Bus` implementations (refinement), so all chip theorems transfer |
| C02 | ThreeWire chunk loop | induction on data length |
| C03 | ThreeWire over FDM decoder | refinement for lengths 1, 2, 4k; refuted for all others (exact characterisation) → `_partial` |
| C04 | ThreeWire over FDM decoder | refuted for all frames: no write is ever decoded → `_partial` keeps chunking |
| C05 | both buses, `oc` flag | FourWire never panics; ThreeWire panics iff `oc` and address+len ≥ 65536 → `_partial` |
| C06–C12 | pure functions | case analysis / `decide` over full finite domain / BitVec arithmetic |
| C08, C09 | pure | exact domain; refuted outside → `_partial` |
| C13 | `Socket.new` | arithmetic on indices |
| C14–C18 | `DeviceState`, device histories with linear handles | invariant by induction over operations |
| C19 | all operations on a logging bus | compositional predicate "fail-stop", induction over loops |
| C20, C21 | all operations on a logging bus | compositional predicate on emitted events; histories by induction |
| C22, C23 | `get_receive_size`, `get_tx_free_size` | induction over retries; arithmetic on torn samples |
| C24–C29 | initialisation | exact traces on arbitrary bus; final state on chip |
| C27 | `initialize` | refuted: traffic does not depend on `mac` |
| C30 | accessors on a register-file chip | refinement to an abstract configuration record over histories |
| C31–C34 | UDP/TCP open | exact traces and chip post-state; C32 refuted (mask is 0) |
| C35, C43, C44 | preconditions | arbitrary bus, no write events |
| C36, C37 | UDP send on chip | ring lemmas + rely/guarantee over schedule; C37 refuted for buffers larger than free space |
| C38 | UDP destination cache | coherence invariant for failure-free histories `_partial`; refuted with a failing write |
| C39–C42 | UDP receive on chip | exact characterisation; C40, C41, C42 refuted |
| C45–C48, C53, C54 | TCP send/receive on chip | ring refinement to FIFO streams, histories; refutations of C47, C48, C53, C54 |
| C49–C52 | TCP connect/send loops | induction over fuel; divergence theorems |
| C55–C59 | MACRAW | refinement to a queue of frames; arbitrary-bus bounds |
| C60 | logging bus | order of events in the trace |
| C61 | client programs on the chip | frame lemma for foreign bus accesses (`Foreign`, `Reach`, `MovesOn`) + induction over client histories |
| C62 | `initialize*` on the chip | every socket passes through a reset; Hoare triples |
| C63 | all operations | compositional predicate `NoPanic` on any bus with `Calm` transfers; client histories |
| C64 | `close`, then any client program | closed sockets: invariant on the chip (status, nothing committed, no interrupt) |
| C65 | `reset_device`, `connect` | refuted: stale destination cache; `_partial` for a different destination |
| C66 | histories without bus errors | `ErrIn`/`FailStop`: an error that is no bus error is raised before or after, never inside, a pointer update |
| C67 | receive calls | two equal samples exist in every infinite run of a chip (`ReadsTwice`); fuel monotonicity (`Le`, `Total`) |
| C68 | send and connect calls | fairness assumptions on the schedule; progress by well-founded waiting (`Chip.Ticks`) |
| C69 | UDP send calls, SENDOK and TIMEOUT | error-aware Hoare triples (`HoareE`) tracking raised and owed flags; refuted for chips that announce late |
| C70 | errors of TCP and UDP calls | compositional predicate `Shows` (traffic of ok- and of error-returns) on any bus |
| C71 | values written to mode, command and size registers | `Emits` over the language of legitimate accesses, extended by values |
| C72 | two programs over a network | corollaries of C61 at both ends, the network as hypothesis on the chips’ ghost traffic |
| C73 | two buses that answer alike | relational rules `Rel R Q m m'` (Proofs/Relate.lean), then induction over the program |
| C74 | chip, contents of the data sent | instance of the relation with `Chip.Veiled`; traffic by observing both buses |
| C75 | any bus with independent sockets | the relation “reached by the other socket's transfer / call”, then induction over the interleaving |
| C76 | chip without faults; any bus without failures for what only touches registers | termination (C67, C68), no panic (C29, C41, C56) and no error: Hoare triples with exceptional postcondition `False` for predicates the environment keeps (`Stays`, `Firm`) |
| C77 | chip | the RECV bit after the call, by Hoare triples about the last access; `Chip.Ticks` invariant for the polls that follow |
| C78 | chip | Hoare triples with the SENDOK bit and `pending` tied to the clock (`SendOkSincere`, `SendOkQuiet`); `Chip.Ticks` through writes |
| C79 | chip | C46, C55, C39 for what is delivered; `Chip.Ticks` invariant `Frozen` for the RX memory while nothing arrives |
| C80 | any bus with a meter; chip for receiving | compositional predicates `Costs`, `CostsB`, `Pays` (upper bounds however the call ends); C67 |
| C81 | any bus; chip (`UdpRun`) for the sender | `MovesOn` with no write frames; inversion of ok-runs; `received` |
| C82 | any byte-wise chip behind the SPI decoder with chip select tied low; `Chip.dev` behind the four-wire decoder | every frame is a string of bytes fed to the decoder (`ByteDev.feed`); phases computed; invariant of the data phase |
| C83 | any bus | inversion of ok-runs, C43, C47 |
| C84 | every history of calls on a chip | induction over histories with the addresses last named; the chip notes the source port register beside each packet |
| C85 | `Plan.bus` (chip with schedule and faults) against `Env.dev` (pending commands, adaptive environment) | every call is a strategy (`Plays`): it meets the bus only through transactions; the run of a strategy on the slow chip is replayed with a schedule read off that run |
| C86 | any bus; `Env.lazyDev` (commands pending for any time) | C21 over histories; computed run |
| C87 | constants | case analysis over the enums |
| C88 | chip model, fault plans `Whole` | invariant `Kept` over histories with failures; computed run |
| C89 | any bus (DISCON); chip model | C71 over histories; C78 and C64; computed run |
| C90 | chip model with failing transactions | invariant `HeldP` over histories (`UdpTalk`, `RawTalk`); computed runs |
| C91 | any bus | invariant `AllocInv` over histories of a client that meddles with its handles (Spec/Forge.lean) |
| C92 | client programs on the chip | no operation but `reset_device` writes the settings registers (`MovesOn`); induction over programs |
| C93 | chip model with failing transactions | invariant "what waits is announced" over `Attends`, the history of an interrupt-driven program; C55 for the empty read; `Reach` for the masks |
| C94 | any bus | `Logs`: Hoare triples over the traffic since the call began; `Sighted` survives everything but a write to Sn_IR |
| C95 | chip, fair | potential of a full TX buffer: transmit, then acknowledge, makes room (`Chip.ticks_events`); `Resting` facts survive a send that accepts nothing; a torn free size is 0 at most once |
| C96 | chip, fair | `Hopeful` (something is announced, or there is room) is kept by a receive that returns 0, until the next byte was tried (`Chip.foldl_event`); `Stuck` (full, unannounced) is kept for ever; induction on the number of bytes wanted |
| C97 | chip, fair | MACRAW: a `read_frame` that returns 0 has only read (`raw_zero`), and after the next frame has come something waits (`frame_ticks`). UDP: the same with `Waits` (something is announced, or there is room for `m` bytes), `would_block_reads`, and `firm_udpCall` (the only error is `WouldBlock`); `Walled` and `Barren` are kept for ever, which makes the condition exact (`C97_udp_exact`) |
| C98 | chip | the recorded histories influence nothing (`Chip.past_respects`, an instance of the relation), so a call runs as if they were empty, which tells what arrived before and after it; `Left` bounds what can still leave while a socket is opened |
| C99 | chip, fair | only what is to come matters (`respects_from`, an instance of the relation), so a run from any state is one with a plan without a past (`Plan.since`), to which C76 and C95 apply; for a stale destination: sending depends on the remembered address only through its being there (`send_destination`), and every contents of the registers is some address (`wire_onto`) |
| C100 | any bus, chip | the transfer is computed; on the chip an assertion for every byte position (`hoare_write`): the registers are the old ones with a first part of the bytes put in (`stored_step`) |
| C101 | any bus, chip | each call is computed; on the chip, induction on the list of calls: the cursor is at the end of the bytes taken, which are at the front of the queue (`RxAt`, `AtFront`), or the bytes taken are stored behind the last SEND (`Behind`); compared with the same calls on a list (`RxOp.onAll`, `txOn`) |
| C102 | any bus, chip | `C102_ignored` by computation; `C102_refuted` from C76 and C42; `C102_partial` by induction on `UdpGot.Among` of C42, filtering both lists |
| C103 | any bus | from C52 (what precedes a CONNECT command), C14 and the allocation invariant |
| C104 | chip | invariant of a closed socket over lists of calls, Hoare triples with `False` for `Ok` |
| C105 | any bus | invariant of histories: a port that is not a socket's default was named once for every socket that has it |
| C106 | chip that is reset at any set of transactions | the frames of a call neither set the mode nor OPEN, so a closed socket stays closed; induction over the frames |
| C107 | any bus; chip that ignores commands in the wrong state | invariant of the traffic (what is known of the socket after each transfer); on the chip, what is known agrees with what the chip told, by induction over the frames |
| C108 | any bus that stops answering at any transfer | the calls after it are computed; counterexamples are computed for every bus and argument |
| C109 | any schedule on which the socket stays open and packets leave, any number of rounds | `udp_wait` and `C76_udp_send` are chained by what holds between two rounds: the history, the status, and that stored data is announced; the invariant of the wait is shown to survive `send` |
| C110 | any schedule on which the connection stays and the peer takes what is sent, any number of rounds | invariant of the wait: nothing waits, or the whole response does and is announced; it survives `send`, time and calls that bring nothing; induction over the time until the response comes |
| C111 | any schedule, faults, answers and number of rounds | rounds of the server are a UDP history; its sends are paired with its receives, and the sets of packets and datagrams of C36 and C42 are joined along the pairs; `C111_served` chains `udp_wait` and `C76_udp_send_to` |
| C112 | any schedule, faults and number of rounds | C111's last call of `receive`, and what it stores and reports (C40) |
| C113 | any schedule, number of rounds and answers | induction on the rounds; C97 and C76 for the two halves; what has arrived since the beginning is an invariant of every write frame and every tick |
| C114 | any schedule, number of rounds and answers | induction on the rounds; C97 and C111 for one round; what has arrived since the received size was sampled is bounded by what came since then, an invariant of every tick and every write frame, and the length of this stretch by the cost of the call |
| C115 | any contents, number and timing of the datagrams at this distance | invariant over time: nothing has come up to the arrival, then exactly the datagram; a poll that returns WouldBlock ends before the arrival, the last one soon after it; induction over the timetable |
| C116 | any number of pieces, any timing at the distance | as C115, with the polling loop that collects bytes; the poll that meets the arrival takes all of it or none |
| C117 | any pieces at any times before the pause | invariant over all SPI bytes that nothing is lost while it fits; bound of the end of a poll that meets the pause; induction on the time until the pause, then until its end |
| C118 | any bound, schedule within it, data, failures | Hoare triples with a time bound; a poll of the flush loop that finds the packet still there began before it left and costs 4 bytes; for TCP and MACRAW the number of rounds that is enough, and C80 |
| C119 | any number, contents and timing of the requests at this distance | C115 for the waiting, C76 for the sending and C118 for the time it takes; invariant of every tick and every write frame of send_to that nothing waits; induction over the timetable |
| C120 | any calls at these distances, anything in the meantime, any number of datagrams at this distance | induction over what the program does: at every time what waits is exactly what is due, kept by every tick and every write frame of the sends and of other sockets' calls; induction over the sockets and the rounds |
| C121 | any calls at this distance, anything in the meantime, any schedule of frames at this rate | invariant kept by every tick and every write frame but RECV: all that came has arrived, since what is left fits; induction over the calls counts the frames left since the queue was last empty |
| C122 | any history, any schedule of frames at this rate, any answers, any number of rounds | induction over the rounds: a round with its answer is over before the next frame is due on average (C118), so the reads are frequent enough for C121 |
| C123 | any calls at this distance, any schedule of frames at this rate, any number of rounds | from the invariant of C121: since the queue was last empty every call took a frame, so the frames that came up to then and one more for each call are taken |
| C124 | any calls at these distances, anything in the meantime, any number of pieces at this distance | as C120: at every time what waits is exactly what is due, kept by every tick and by every write frame of the sends; induction over what the program does |
| C125 | any number of rounds, any answers, any timing at this distance | induction over the rounds with the invariant of C124; what was sent is transmitted and acknowledged, by the ticks alone, before the next piece comes, so the TX buffer is empty when the next answer is sent |
| C126 | any number and mixture of sockets, any number of rounds, any answers, any timing at these distances | induction over the rounds and the sockets of a round; each socket has the invariant of C120 or C124 with what it has sent, and frames for other sockets keep it |
| C127 | any calls or adaptive programs, any states, any two plans which agree meanwhile | every call is a decision tree over the bus; induction over the tree, with clock and transaction count, which never go back |
| C128 | any pieces at these distances, any time of the end, any answers, any number of rounds | C125 on a network that continues after the end, carried over by C127 for the rounds before it; then induction over the remaining rounds with an invariant of the chip's ticks |
| C129 | any pieces at these distances, any time of the end | as C128: the calls before the end on a network that continues after it, carried over by C127; then induction over the remaining calls |
| C130 | any failing transfer, any history before, any such network after | the histories of C45, C39, C55 with the failed call in them; what happened before the failure is replaced by nothing (C99), carried over by C127; then C76 and C95. Early failures: an invariant with a count of transfers |
| C131 | any number of early failures, any history | early failures keep the pointers (C130), so that such a history is one of C45, C42, C55; for UDP and MACRAW the packets are counted again by induction, with the invariants restarted at every call |
| C132 | any number of early failures of send_to, any history | the object is replaced by one that has forgotten its address unless it is the one tried last: it makes the same transfers, and for it the destination registers may hold anything; then as C131 and C76 |
| C133 | errors seen = transfers failed, for whole programs | from C19 by induction over the calls; on the chip by induction over the strategy that the program is (C85) |
| C134 | after early failures, calls get through | C131's induction gives a history of C55/C76/C95; then these, on the plan from now on |
| C135 | a call fails on the bus or gets through | C133 for the one call: if it reports nothing, no transfer it made failed, so that it did what it does when none fails (agreement of plans until the end of the call); then C76 |
| C136 | calls repeated on bus errors | the attempts make a history of C131; each takes one of the N failures (C133), so that after N none is left; then C135 |
| C137 | connect and bind repeated on bus errors | each failed attempt takes one of the N failures (C133); without failures the last one is successful (C76), and it is played alike until its first failure |
| C138 | data sent piece by piece in spite of failures | the calls make a history of C131; the failed ones are counted along it (C133); after N no failures are left, and C134 and C135 apply |
| C139 | data received in spite of failures | the calls make a history of C131; the failed ones are counted along it (C133); after N no failures are left, and C135 applies |

## 4. Modelling notes

### 4.1 The crate (`Verif/Model`)

| file | Rust source | contents |
|------|-------------|----------|
| Core | `src/bus/mod.rs` | `Res`, `M`, `Bus`, lifting a bus call (`readFrame`, `writeFrame`) |
| Cursor | `src/cursor.rs` | `RxCursor`, `TxCursor` used by MACRAW |
| Wire | `src/bus/four_wire.rs`, `src/bus/three_wire.rs` | the two buses, over an arbitrary `SpiDevice`/`SpiBus` |
| Registers, Net | `src/register.rs`, `src/net.rs`, `src/lib.rs` | addresses, enums, bit fields, `RetryTime`, `PhyConfig`, MAC address, IPv4 address |
| Socket | `src/socket.rs` | `Socket` and all its accessors |
| Udp, Tcp, Raw | `src/udp.rs`, `src/tcp.rs`, `src/raw_device.rs` | the three kinds of sockets |
| Device | `src/device.rs`, `src/uninitialized_device.rs`, `src/host/*.rs` | device state, initialisation, hosts |

Deviations from the text of the crate:

* A `&mut [u8]` buffer is a list in the state; slices of it are `take`/`drop`, and `&buf[a..b]` with a bad range is `panic`.
* `read_frame(.., &mut data)`: the bus returns the new contents of `data`, of the same length (field `read_length`); on an
  error it also returns contents (a bus may have overwritten part of the buffer).
* `usize`, `Ipv6` segments and lengths are unbounded; the casts `as u16`, `as u8` are `BitVec.ofNat`.
* `nb::Result`: `NbError.wouldBlock | other e`. `nb::block!` is a loop with fuel that retries on `wouldBlock`.
* Overflow: `wrapping_add` wraps; where the source uses a plain operator on a fixed-width integer that can overflow
  (`three_wire.rs:74,103`, `RetryTime::from_millis`), the model takes `oc` and panics if it is set.
* One state component for the bus: `Device.tcpSend` etc. take the whole device, as the trait methods do.
* Not represented, because nothing happens in them: `FourWire::new/release`, `ThreeWire::new/release`, the `From`
  implementations, the getters `register`, `tx_buffer`, `rx_buffer` of `Socket` (fields here), the trait declarations of
  `State`, the `State` implementation for `&mut T`, `UninitializedDevice::new`, all `Debug`/`defmt` formatting.

### 4.2 The chip (`Verif/Spec/Chip.lean`, `Spi.lean`)

The chip is reached byte by byte. Before every byte the schedule (an arbitrary function of the byte count) lets any finite
list of events happen on any socket; every transaction may fail after any number of bytes (fault plan, an arbitrary function of
the transaction count). Both are universally quantified in every theorem, so "for every schedule" covers all interleavings of
host and network at byte granularity, including 16-bit registers changing between their two bytes.

Simplifications, with the direction in which they err:

* Commands are executed when Sn_CR is written and Sn_CR reads 0 at once. Chips that take up a command at any later moment before
  the next access to the socket, and environments that react to what the host does, add nothing (C85, `Verif/Spec/Slow.lean`).
  Chips that take longer are not covered: the driver does not support them (C86_refuted).
* SEND, RECV and CONNECT are accepted in every socket state. The real chip ignores them in some; TCP and UDP calls give them
  there only if the status changed after it was checked (C107, proved on `Picky.dev`, which does ignore them).
* The status may change to any value at any time (more behaviours than real; where this matters, e.g. C31, the statement
  says "if no status change intervenes").
* OPEN empties the buffers; where the pointers start is arbitrary, per socket (`Sock.bases`, any function of where they were).
  In TCP mode CONNECT may initialise them once more (datasheet, Sn_TX_RD), again to arbitrary values; that the real chip may do so
  a little later, while connecting, makes no difference to the driver, which only reads Sn_SR then.
* Interrupt bits may be raised at any time, except that outside TCP mode SENDOK and TIMEOUT are raised only for packets
  that left or were dropped (`Sock.owed`), each at most once, after any delay.
* A TX buffer is transmitted as a whole packet (UDP, MACRAW) or in any portions (TCP), at any time; it may also never be.
* A packet or segment that does not fit into the free RX space is lost as a whole.
* 0 KiB buffers are excluded (`GoodSize`): nothing can be transferred then. Total size of all buffers is not checked.
* The datasheet's collision rules for overlapping UDP headers, IGMP, PPPoE, keep-alive, WoL are not modelled.

`C01_refinement` proves that the four-wire bus of the crate over the SPI decoder of the chip *is* the byte-level bus used by
all chip theorems; so they hold for the driver down to the bytes on MOSI/MISO. For the three-wire bus see C03, C04: it does not work.

### 4.3 Histories

* `Client` (`Spec/Client.lean`): arbitrary programs over the public API with Rust's ownership of handles as a list. Not
  representable there, but in Spec/Forge.lean (C91): handles of another device, overwriting the public field `Socket::index`. Not representable: `mem::forget`-like tricks other than
  `leak`. `reactivate g` is `deactivate`, any use `g` of the bus, `activate`; in chip theorems `g` lets time pass.
* `TcpRun`, `UdpRun`, `UdpCalls`, `RawRun`: histories of one socket, with any bus access of others in between (`read`: any
  read; `write`: any write that is `Foreign`). Failed calls may occur; a condition on the state they leave behind
  (`Settled`, `Drained`, `Quiet`, unchanged pointer register) is part of the step, because without it the claims are false
  (C38, C53, C54, C57). `…SoundRun` (C66) has no such condition but no bus errors. The step `past` lets everything up to now
  have happened under another schedule and other failures; so does the separate `sched0`, `faults0` of the opening call. Conditions
  on the network (no failures, paced arrivals, …) therefore apply only to the calls a theorem is about. `…Rough` (C131) counts transfers
  of failed calls instead. `UdpWary` (C132) does so too, and allows failed `send_to` calls, but until one returns `Ok` no `send`, and no `send_to` for the
  address remembered (`Safe`).
* `TcpClient`, `UdpClient` (`Spec/System.lean`): the same within a client program using any number of sockets.
* `send_to` with an IPv6 address: the crate returns an error before any bus access; recorded as no send.

### 4.4 Termination

`fuel` bounds the rounds of each unbounded loop. Safety theorems hold for every fuel. `Finishes`/`EndsWith`
(`Spec/Returns.lean`) say that from some fuel on the outcome does not change, i.e. the Rust loop terminates. Liveness needs a
fair network: `Emitting` (committed packets leave or are dropped), `Confirming` (SENDOK raised infinitely often), `Lossless`,
`Answering` (status becomes ESTABLISHED or CLOSED again and again). C50, C51, C58 show the assumptions are needed.

### 4.5 Statements that are false of the code

`partial` in MANIFEST.json marks a property whose full statement is false of the crate (C01–C60 are kept in
properties.jsonl as they were written, from the documentation, before proving; later ones were added as the model grew, some of them
because it suggested that they fail); the refutation is proved next to the part that holds. Findings:

| id | what the code does |
|----|--------------------|
| C03, C04 | three-wire mode: read lengths other than 0, 1, 2, 4k get the chip out of step; no write is ever recognised (direction mask is `0b10`) |
| C05 | three-wire mode panics at the end of the address space with overflow checks |
| C08 | `RetryTime::from_millis` overflows above 6553 ms |
| C09 | `operation_mode` panics for the reserved pattern 101 |
| C27 | `initialize` ignores the MAC address |
| C32 | interrupt mask of an opened socket is 0 (`&` instead of `\|`) |
| C35, C37 | a UDP buffer larger than the free space is sent as several datagrams, possibly followed by an error; an empty buffer sends nothing |
| C38, C65 | destination cache goes stale after a bus error and after `reset_device` |
| C40, C41, C42 | UDP receive returns `max` instead of `min` of lengths, panics on short buffers, and drops all further queued datagrams |
| C47, C48 | TCP receive ignores queued data unless the RECV interrupt is pending and the status is ESTABLISHED |
| C49 | `connect` reports success if the status becomes CLOSED |
| C50, C51, C58 | endless loops in `connect`, TCP `send`, `write_frame` |
| C53, C54 | a bus error between a pointer update and its command corrupts the next call |
| C56 | MACRAW `read_frame` panics if exactly one byte is reported |
| C69 | a UDP send returns `Ok` if neither SENDOK nor TIMEOUT is up yet when the pointers agree |
| C77 | receiving clears the RECV flag after the RECV command, so data that arrives in between is not noticed |
| C78 | TCP `send` does not clear SENDOK first, so `Ok` may be about an earlier packet |
| C79 | UDP receive hands out stale memory of the chip |
| C81 | an empty datagram is neither sent nor reported as empty |
| C82 | over three wires, initialisation returns `Ok` without effect, and may write to addresses made of gateway bytes |
| C83 | TCP receive returns `Ok(0)` where `WouldBlock` is demanded |
| C84 | after a bus error in `bind` the object reports the new port, datagrams leave from the old one |
| C86 | the driver never polls Sn_CR; if RECV is taken up late, `receive` returns bytes nobody sent |
| C88 | a write of Sn_TX_WR that breaks off after its first byte leaves a pointer nobody meant; the next `send` returns `Ok` and makes the chip transmit stale memory between the bytes of the program |
| C89 | `close` of a connection never issues DISCON (CLOSE only): the peer is not told; data accepted with `Ok` can be dropped by it |
| C90 | a `send_to(A, …)` that fails on the bus at the SEND command leaves its data in the TX buffer: the next `send_to(B, …)` sends both messages to B in one datagram; MACRAW frames are glued together likewise |
| C91 | `Socket::index` is public and `Device::release` does not ask for outstanding sockets: a renumbered or kept handle frees the slot of another one, which is handed out twice; index 8 or more panics in `release_socket` |
| C92 | `reset_device` is public and does not program the settings again: afterwards MAC address, IP address, gateway and subnet mask are 0 for good |
| C96 | as RECV is cleared after room was made, the RX buffer of a TCP connection can be full and unannounced when `receive` returns; then no byte can arrive any more, RECV is never raised again, and the connection is dead for the reader although it is established |
| C97 | the same with UDP: a datagram stored while another is delivered stays unannounced, and if those that come afterwards do not fit beside it, `nb::block!(receive)` never ends. MACRAW is not affected, as `read_frame` does not look at RECV |
| C99 | opening a UDP socket again with `connect` does not repair a destination left half-written by a failed call: `set_destination` compares with the remembered address only, so all further data goes to the wrong address with every call returning `Ok` |
| C100 | `set_tx_read_pointer` (public) has no effect: Sn_TX_RD is read-only; the pointer read back is not the one set |
| C101 | `RxCursor::read` (crate-private) cuts the length of its buffer to 16 bits: with a buffer of 65536 bytes it reads nothing. Latent: the crate calls it only through `read_upto` or with small buffers |
| C102 | `receive` of a UDP socket on which `connect` was called also hands out datagrams of anybody else, and drops those of the peer queued behind them |
| C103 | every connection of a hardware socket leaves from the same local port, 49849 plus its number, so a reconnect to the same server repeats all four of addresses and ports |
| C104 | after a reset of the chip, a UDP socket object that is connected or bound again still believes that its destination is in the registers, and sends to 0.0.0.0; a MACRAW device reads nothing and hangs in write_frame |
| C105 | `bind` does not notice that another socket of the device has the port, and a port from 49849 to 49856 may be given out again by `connect` on an unbound socket |
| C106 | the chip is reset during a call: TCP `send` may never return, UDP `send` may return `Ok` for a datagram that never left, TCP `receive` may return `Ok` with bytes that were not sent |
| C107 | MACRAW `write_frame` and `read_frame` give SEND and RECV without ever looking at the status |
| C108 | `initialize_macraw` never checks the chip version, so it returns `Ok` without a chip. TCP `connect` returns `Ok` while 0x00 is read. If the chip stops answering during `send`, `send` returns `Ok` (0xFF) or never returns (0x00) |
| C109 | an answer that comes twice makes the next round of a UDP client return the duplicate, and lose its own answer |
| C110 | a TCP response in two pieces, the second of which comes while `receive` delivers the first, makes the client wait forever for bytes that are in the chip |
| C112 | an echo server sends to a client, behind its own bytes, the address, port and data of another client whose datagram waits |
| C114 | a UDP server that has answered its first request never answers again, although requests that fit into the RX buffer keep coming: one of them was stored while the first was read, its announcement was cleared with that of the first, and no other fits beside it |

### 4.6 Testing the theorems

`seeded/LOG.jsonl` records edits of the model (wrong boundaries, dropped updates, swapped arguments, wrong constants) made in
a scratch copy, with the theorems that no longer prove. A failing helper lemma is replaced by `sorry` and the build continued, so
"failed" lists the theorems that fail themselves or rest on a failing lemma. Edits under which a claim became false while its theorem
still proved led to the changes named in the field `tightened`.

## 5. Axioms

Output of `#print axioms` for every theorem named in MANIFEST.json, grouped (namespace `W5500.Props`).

* no axioms: `C10_status_roundtrip`, `C13_exported_constants`, `C62_sizes`, `C87_addresses`, `C87_commands`
* propext: `C07_to_register`, `C08_default`, `C100_set`, `C11_mac_octets_injective`, `C11_mac_roundtrip`, `C70_set_port`, `C87_status`
* Quot.sound, propext: `C01_read`, `C01_refinement`, `C01_write`, `C02_read`, `C02_write`, `C03_refuted`, `C04_bytes_sent_partial`, `C05_four_wire`, `C05_three_wire_partial`, `C07_from_register`, `C07_roundtrip'`, `C08_fails`, `C08_full_false`, `C08_millis_exact_partial`, `C09_device`, `C09_fails`, `C09_operation_mode_partial`, `C09_phy_flags`, `C100_chip_set`, `C100_get`, `C100_has_interrupt`, `C100_has_interrupt_chip`, `C100_pointers_partial`, `C100_refuted`, `C100_reset_interrupt_chip`, `C100_tx_read_ignored`, `C101_read_partial`, `C101_read_upto`, `C101_refuted`, `C101_session_partial`, `C101_skip`, `C102_ignored`, `C103_refuted`, `C104_refuted_destination`, `C104_refuted_read`, `C104_refuted_write`, `C105_refuted`, `C105_refuted_chip`, `C105_refuted_default`, `C106_refuted_hang`, `C106_refuted_receive`, `C106_refuted_send`, `C107`, `C107_chip`, `C107_raw`, `C108_refuted_connect`, `C108_refuted_hang`, `C108_refuted_raw`, `C108_refuted_receive`, `C108_refuted_send`, `C108_refuted_udp`, `C108_refuted_wait`, `C110_deaf`, `C110_refuted`, `C112_refuted`, `C118_tcp_send`, `C11_mac_display`, `C11_mac_display_injective`, `C128_hasty`, `C129_hasty`, `C12_udp_header`, `C131_exact_raw`, `C131_exact_tcp`, `C131_exact_udp`, `C132_exact`, `C13_blocks_datasheet`, `C15_socket_calls`, `C16_close_result`, `C18_reactivate_erasable`, `C18_reactivate_state`, `C19_raw`, `C21_init_raw`, `C21_meaning`, `C22`, `C22_samples`, `C22_stable`, `C23_samples`, `C24`, `C26`, `C27_refuted`, `C28`, `C29`, `C29_script`, `C31_bind`, `C31_bind_script`, `C31_connect_history_partial`, `C31_connect_partial`, `C31_connect_script`, `C32_refuted`, `C33_default`, `C33_distinct`, `C33_history`, `C33_tcp`, `C33_tcp_script`, `C34`, `C34_v4`, `C35_destination`, `C35_full_partial`, `C35_refuted`, `C35_send_to`, `C36_pieces`, `C37_refuted`, `C38_partial`, `C38_refuted`, `C38_settled_connect`, `C38_settled_send_to`, `C40_refuted`, `C41_panic_partial`, `C41_refuted`, `C42_refuted`, `C43_before_data`, `C44_kind`, `C44_receive`, `C44_send`, `C45`, `C45_count`, `C46`, `C46_buffer`, `C47_ignored`, `C47_partial`, `C47_refuted`, `C48_kept_partial`, `C48_refuted`, `C49_partial`, `C49_refuted`, `C50_partial`, `C50_refuted`, `C51_refuted`, `C52`, `C52_refused`, `C53_partial`, `C53_refuted`, `C54_partial`, `C54_refuted`, `C55_unambiguous`, `C56`, `C56_buffer`, `C56_length`, `C56_panic`, `C57_bus`, `C59`, `C59_script`, `C60_no_other_send`, `C63_calm`, `C63_init`, `C65_example`, `C65_partial`, `C65_refuted`, `C66_destination`, `C66_tcp`, `C66_tcp_receive`, `C66_tcp_send`, `C67_rounds`, `C68_tcp_send`, `C69_refuted`, `C70_close`, `C70_tcp_connect`, `C70_tcp_receive`, `C70_tcp_send`, `C70_udp_open`, `C70_udp_receive`, `C70_udp_send`, `C70_udp_send_to`, `C70_v6`, `C71_commands`, `C73_init`, `C76_init`, `C76_plain`, `C77_refuted`, `C77_tcp_deaf`, `C77_tcp_partial`, `C77_tcp_refuted`, `C77_tcp_unannounced`, `C77_tcp_window_partial`, `C77_udp_deaf`, `C77_udp_unannounced`, `C78_cleared`, `C78_refuted`, `C79_refuted`, `C79_tcp`, `C79_udp_stored`, `C80_init`, `C80_meters`, `C80_plain`, `C80_raw`, `C80_tcp`, `C80_udp`, `C81_receive_refuted`, `C81_send_ok`, `C81_send_refuted`, `C83_refuted`, `C83_tcp`, `C84_after_bus_error`, `C86_partial`, `C86_refuted`, `C87_interrupts`, `C87_phy`, `C88_refuted`, `C89_lost`, `C90_raw_partial`, `C90_raw_refuted`, `C90_udp_refuted`, `C91_panic`, `C93_late_clear`, `C93_one_frame`, `C94`, `C94_raw`, `C96_jam`, `C96_refuted`, `C98_tcp`, `C99_init`, `C99_udp_refuted`
* Classical.choice, Quot.sound, propext: `C03_in_step_iff`, `C03_read_partial`, `C04_no_register_written`, `C04_refuted`, `C06_mode_bits`, `C06_mode_injective`, `C07_roundtrip`, `C101_transmit`, `C101_write`, `C102_partial`, `C102_refuted`, `C103_new_socket`, `C103_partial`, `C104_partial`, `C105_open`, `C105_partial`, `C106_partial`, `C108_partial`, `C109_partial`, `C109_refuted`, `C10_status_decode`, `C10_status_reject`, `C110_partial`, `C111`, `C111_served`, `C112_partial`, `C113`, `C113_round`, `C114_paced`, `C114_partial`, `C114_refuted`, `C114_round`, `C115`, `C115_one`, `C116`, `C117`, `C117_request`, `C118_raw_write`, `C118_tcp_connect`, `C118_udp_send`, `C118_udp_send_to`, `C119`, `C119_round`, `C120`, `C120_turns`, `C121`, `C121_call`, `C121_caught_up`, `C121_collect`, `C122`, `C123`, `C123_answers`, `C124`, `C124_gather`, `C125`, `C126`, `C127`, `C127_boot`, `C127_macraw`, `C127_strategy`, `C128`, `C129`, `C130_raw_read`, `C130_raw_read_early`, `C130_raw_write`, `C130_raw_write_early`, `C130_tcp_receive`, `C130_tcp_receive_early`, `C130_tcp_send`, `C130_tcp_send_early`, `C130_udp_receive`, `C130_udp_receive_early`, `C130_udp_send`, `C130_udp_send_early`, `C131_raw`, `C131_tcp`, `C131_udp`, `C132`, `C132_again`, `C133`, `C133_again`, `C133_again_macraw`, `C133_boot`, `C133_chip`, `C133_chip_macraw`, `C133_macraw`, `C134_raw_read`, `C134_raw_write`, `C134_tcp_receive`, `C134_tcp_send`, `C134_udp_receive`, `C134_udp_send`, `C135_raw_read`, `C135_raw_write`, `C135_tcp_receive`, `C135_tcp_send`, `C135_udp_receive`, `C135_udp_send`, `C135_udp_send_to`, `C136_raw_read`, `C136_raw_write`, `C136_tcp_receive`, `C136_tcp_send`, `C136_udp_receive`, `C136_udp_send`, `C136_udp_send_to`, `C137_tcp_connect`, `C137_udp_bind`, `C137_udp_connect`, `C138_raw`, `C138_tcp`, `C138_udp`, `C139_raw`, `C139_tcp`, `C139_udp`, `C13_blocks_disjoint`, `C14_index`, `C14_live_sockets_distinct`, `C15_take_socket`, `C16_freed_iff`, `C16_lost_forever`, `C17_reset`, `C18_outstanding_exact`, `C18_release`, `C19_device`, `C19_init`, `C19_tcp`, `C19_udp`, `C20_common_only`, `C20_isolated`, `C21_history`, `C23`, `C25`, `C26_registers`, `C27_partial`, `C30`, `C30_initialized`, `C35_status_partial`, `C36_history`, `C36_send`, `C36_send_to`, `C37_large`, `C37_partial`, `C39`, `C40_partial`, `C41_chip_partial`, `C42_all_removed`, `C42_partial`, `C42_single`, `C43_would_block`, `C51_partial`, `C55_call`, `C55_history`, `C57_chip`, `C57_failed`, `C57_history`, `C58_never_ok`, `C58_partial`, `C58_refuted`, `C60_raw_write_frame`, `C60_tcp_send`, `C60_udp_send`, `C60_udp_send_to`, `C61_tcp`, `C61_udp`, `C62_advanced`, `C62_dhcp`, `C63`, `C64`, `C64_closed`, `C66_udp`, `C66_udp_receive`, `C66_udp_send`, `C66_udp_send_to`, `C67_raw`, `C67_tcp`, `C67_udp`, `C68_raw_write`, `C68_tcp_connect`, `C68_udp_send`, `C68_udp_send_to`, `C69_ok_partial`, `C69_send_partial`, `C69_send_to_partial`, `C71_history`, `C71_init_raw`, `C72_raw`, `C72_raw_order`, `C72_tcp`, `C72_tcp_all`, `C72_udp`, `C72_udp_order`, `C72_udp_whole`, `C73`, `C73_observed`, `C73_raw`, `C74`, `C74_raw`, `C74_traffic`, `C75`, `C75_chip`, `C75_interleaved`, `C76_raw_read`, `C76_raw_write`, `C76_tcp_connect`, `C76_tcp_receive`, `C76_tcp_send`, `C76_udp_bind`, `C76_udp_connect`, `C76_udp_receive`, `C76_udp_send`, `C76_udp_send_to`, `C76_udp_sends`, `C76_udp_session`, `C77_udp_partial`, `C77_udp_window_partial`, `C78_partial`, `C79_raw`, `C79_udp_partial`, `C80_receive`, `C81_partial`, `C82_dead`, `C82_initialize_partial`, `C82_manual_dead`, `C82_manual_partial`, `C82_partial`, `C82_refuted`, `C82_stray`, `C83_partial`, `C84_send`, `C84_send_to`, `C84_told`, `C85`, `C85_boot`, `C85_macraw`, `C85_tcp`, `C86_never_polled`, `C88_partial`, `C89_partial`, `C89_refuted`, `C90_udp_partial`, `C91_close_refuted`, `C91_partial`, `C91_renew_refuted`, `C91_renumber_refuted`, `C92_manual_partial`, `C92_partial`, `C92_refuted`, `C93`, `C95`, `C95_stalled`, `C96_paced`, `C96_partial`, `C97_jam`, `C97_raw`, `C97_refuted`, `C97_udp_exact`, `C97_udp_partial`, `C98_raw`, `C98_udp`, `C99_past`, `C99_raw`, `C99_tcp`, `C99_udp`, `C99_udp_partial`
