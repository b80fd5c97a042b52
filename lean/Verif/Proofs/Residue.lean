import Verif.Spec.Residue
import Verif.Proofs.Veil
import Verif.Proofs.RawHistory
/-! # What is left over from earlier uses of a socket

Two tools. `Sock.past` puts a past before the recorded history of a socket; nothing the chip or the crate does depends on
it. `Left` bounds what can still leave a socket while it is opened anew. -/

namespace W5500.Spec
open W5500 Sock

/-- A recorded history. -/
structure Past where
  arrived : List U8
  stream : List U8
  packets : List Packet
  sources : List (List U8)

namespace Sock

/-- The socket with a longer history. -/
def past (s : Sock) (p : Past) : Sock :=
  { s with
    arrived := p.arrived ++ s.arrived
    stream := p.stream ++ s.stream
    packets := p.packets ++ s.packets
    sources := p.sources ++ s.sources }

/-- The history of a socket. -/
def history (s : Sock) : Past := ⟨s.arrived, s.stream, s.packets, s.sources⟩

/-- The socket without its history. -/
def blank (s : Sock) : Sock := { s with arrived := [], stream := [], packets := [], sources := [] }

theorem blank_past (s : Sock) : s.blank.past s.history = s := by simp [blank, past, history]

variable (s : Sock) (p : Past)

theorem past_push (bs : List U8) : (s.past p).push bs = (s.push bs).past p := by
  unfold push
  show (if s.rsr.toNat + _ ≤ s.rxSize then _ else _) = Sock.past (if s.rsr.toNat + _ ≤ s.rxSize then _ else _) p
  split
  · simp [past, rxSize]
  · rfl

theorem past_act (e : Act) : (s.past p).act e = (s.act e).past p := by
  cases e with
  | arrive bs =>
    show (if s.proto = 1 then _ else _) = Sock.past (if s.proto = 1 then _ else _) p
    split
    · exact past_push s p _
    · rfl
  | datagram d =>
    show (if s.proto = 2 ∧ d.Wf then _ else _) = Sock.past (if s.proto = 2 ∧ d.Wf then _ else _) p
    split
    · exact past_push s p _
    · rfl
  | frame f =>
    show (if s.proto = 4 ∧ f.length + 2 < 65536 then _ else _) = Sock.past (if s.proto = 4 ∧ f.length + 2 < 65536 then _ else _) p
    split
    · exact past_push s p _
    · rfl
  | transmit k =>
    show (if s.proto = 1 then _ else _) = Sock.past (if s.proto = 1 then _ else _) p
    split
    · simp [past, txSize]
    · rfl
  | ack k =>
    show (if s.proto = 1 then _ else _) = Sock.past (if s.proto = 1 then _ else _) p
    split <;> rfl
  | emit b =>
    show (if (s.proto = 2 ∨ s.proto = 4) ∧ s.txRd ≠ s.txLimit then _ else _) =
      Sock.past (if (s.proto = 2 ∨ s.proto = 4) ∧ s.txRd ≠ s.txLimit then _ else _) p
    split
    · simp [past, pending, txSize]
    · rfl
  | raise bits => rfl
  | status x => rfl

theorem past_connecting : (s.past p).connecting = s.connecting.past p := by
  unfold connecting
  show (match s.proto, s.bases s.txRd s.rxRd with | 1, some (p, q) => _ | _, _ => _) =
    Sock.past (match s.proto, s.bases s.txRd s.rxRd with | 1, some (p, q) => _ | _, _ => _) p
  split <;> rfl

theorem past_command (x : U8) : (s.past p).command x = (s.command x).past p := by
  have hc := past_connecting s p
  unfold command
  split
  · rfl
  split
  · rfl
  split
  · rw [hc]; rfl
  repeat' split
  all_goals rfl

theorem past_pokeReg (a : U16) (x : U8) : (s.past p).pokeReg a x = (s.pokeReg a x).past p := by
  unfold pokeReg
  split
  · exact past_command s p x
  repeat' split
  all_goals rfl

theorem past_pokeTx (a : U16) (x : U8) : (s.past p).pokeTx a x = (s.pokeTx a x).past p := rfl
theorem past_reset : (s.past p).reset = s.reset.past p := rfl

end Sock

namespace Chip

/-- The chip with longer histories. -/
def past (c : Chip) (p : Nat → Past) : Chip := { c with socks := fun n => (c.socks n).past (p n) }

/-- The chip without history. -/
def blank (c : Chip) : Chip := { c with socks := fun n => (c.socks n).blank }

/-- The histories of the sockets. -/
def history (c : Chip) (n : Nat) : Past := (c.socks n).history

theorem blank_past (c : Chip) : c.blank.past c.history = c := by
  have h : (fun n => ((c.socks n).blank).past (c.history n)) = c.socks := funext fun n => Sock.blank_past (c.socks n)
  exact congrArg (fun f => { c with socks := f }) h

variable (c : Chip) (p : Nat → Past)

theorem past_setSock (n : Nat) (s : Sock) : (c.past p).setSock n (s.past (p n)) = (c.setSock n s).past p := by
  unfold setSock past
  congr 1
  funext m
  dsimp only
  split
  · rename_i h; rw [h]
  · rfl

theorem past_event (e : Nat × Act) : (c.past p).event e = (c.event e).past p := by
  unfold event
  rw [← past_setSock]
  congr 1
  exact Sock.past_act _ _ _

theorem past_events (es : List (Nat × Act)) : es.foldl event (c.past p) = (es.foldl event c).past p := by
  induction es generalizing c with
  | nil => rfl
  | cons e es ih => rw [List.foldl_cons, past_event, ih]; rfl

theorem past_tick (sched : Nat → List (Nat × Act)) : (c.past p).tick sched = (c.tick sched).past p := by
  have := past_events c p (sched c.clock)
  exact congrArg (fun x : Chip => { x with clock := c.clock + 1 }) this

theorem past_peek (b : BitVec 5) (a : U16) : (c.past p).peek b a = c.peek b a := rfl

theorem past_poke (b : BitVec 5) (a : U16) (x : U8) : (c.past p).poke b a x = (c.poke b a x).past p := by
  unfold poke
  split
  · unfold pokeCommon
    split
    · rfl
    · split <;> rfl
  split
  · rw [← past_setSock]
    congr 1
    exact Sock.past_pokeReg _ _ _ _
  split
  · rw [← past_setSock]
    rfl
  · rfl

variable {E : Type} {sched : Nat → List (Nat × Act)} {faults : Nat → Option (E × Nat)}

theorem past_readBytes (b : BitVec 5) (a : U16) (n : Nat) :
    (dev sched faults).readBytes (c.past p) b a n =
      (((dev sched faults).readBytes c b a n).1, ((dev sched faults).readBytes c b a n).2.past p) := by
  induction n generalizing c a with
  | zero => rfl
  | succ n ih =>
    have h := ih (c.tick sched) (a + 1)
    have e := past_tick c p sched
    show (((c.past p).tick sched).peek b a :: ((dev sched faults).readBytes ((c.past p).tick sched) b (a + 1) n).1,
      ((dev sched faults).readBytes ((c.past p).tick sched) b (a + 1) n).2) = _
    rw [e, h]
    rfl

theorem past_writeBytes (b : BitVec 5) (a : U16) (d : List U8) :
    (dev sched faults).writeBytes (c.past p) b a d = ((dev sched faults).writeBytes c b a d).past p := by
  induction d generalizing c a with
  | nil => rfl
  | cons x xs ih =>
    have e : (dev sched faults).writeByte (c.past p) b a x = ((dev sched faults).writeByte c b a x).past p := by
      show ((c.past p).tick sched).poke b a x = _
      rw [past_tick, past_poke]
      rfl
    show (dev sched faults).writeBytes ((dev sched faults).writeByte (c.past p) b a x) b (a + 1) xs = _
    rw [e, ih]
    rfl

/-- Frames do not depend on the past. -/
theorem past_respects : Respects (fun _ => True) (fun _ => True) Eq (dev sched faults).bus (dev sched faults).bus
    (fun c c' => c = c'.past p) := by
  have hw : ∀ b a d (w w' : Chip), w = w'.past p →
      ((dev sched faults).bus.writeFrame w b a d).1 = ((dev sched faults).bus.writeFrame w' b a d).1 ∧
      ((dev sched faults).bus.writeFrame w b a d).2 = ((dev sched faults).bus.writeFrame w' b a d).2.past p := by
    intro b a d w w' r
    subst r
    simp only [ByteDev.bus, Chip.dev]
    have e : (w'.past p).txn = w'.txn := rfl
    rw [e]
    rcases faults w'.txn with _ | ⟨e, k⟩
    · exact ⟨rfl, past_writeBytes { w' with txn := w'.txn + 1 } p _ _ _⟩
    · exact ⟨rfl, past_writeBytes { w' with txn := w'.txn + 1 } p _ _ _⟩
  refine ⟨?_, fun b a d w w' _ r => hw b a d w w' r, fun b a d d' w w' _ hd r => hd ▸ hw b a d w w' r⟩
  intro b a d w w' _ r
  subst r
  simp only [ByteDev.bus, Chip.dev]
  have e : (w'.past p).txn = w'.txn := rfl
  rw [e]
  rcases faults w'.txn with _ | ⟨e, k⟩
  · have := past_readBytes (sched := sched) (faults := faults) { w' with txn := w'.txn + 1 } p (b.setWidth 5) a d.length
    have h1 := congrArg Prod.fst this
    have h2 := congrArg Prod.snd this
    exact ⟨rfl, h1, h2⟩
  · have := past_readBytes (sched := sched) (faults := faults) { w' with txn := w'.txn + 1 } p (b.setWidth 5) a
      (min (k - 3) d.length)
    have h1 := congrArg Prod.fst this
    have h2 := congrArg Prod.snd this
    exact ⟨rfl, congrArg (· ++ _) h1, h2⟩

end Chip

variable {E ε α : Type} {sched : Nat → List (Nat × Act)} {faults : Nat → Option (E × Nat)}

/-- A run from a chip is a run from the chip without history, with the history put in front. -/
theorem blank_run {m : M Chip ε α} (hm : ∀ p, Rel (fun c c' : Chip => c = c'.past p) Eq m m) {c c1 : Chip} {r : Res ε α}
    (h : m c = (r, c1)) : ∃ c1', m c.blank = (r, c1') ∧ c1 = c1'.past c.history := by
  obtain ⟨h1, h2⟩ := (hm c.history).run c c.blank c.blank_past.symm
  rw [h] at h1 h2
  exact ⟨(m c.blank).2, Prod.ext (Res.same_eq.mp h1).symm rfl, h2⟩

/-! ## What can still leave -/

/-- Since the chip had `S` and `K` in its histories and `X` to transmit, nothing left but bytes of `X`. -/
structure Left (X S : List U8) (K : List Packet) (s : Sock) : Prop where
  size : GoodSize s.txSize
  rest : s.pending <:+ X
  stream : ∃ o, s.stream = S ++ o ∧ o ++ s.pending <+: X
  packets : ∃ ps, s.packets = K ++ ps ∧ ∀ p ∈ ps, p.data <:+ X

theorem Left.congr {X S : List U8} {K : List Packet} {s s' : Sock} (h : Left X S K s) (h1 : s'.txSize = s.txSize)
    (h2 : s'.pending = s.pending) (h3 : s'.stream = s.stream) (h4 : s'.packets = s.packets) : Left X S K s' := by
  obtain ⟨a, b, c, d⟩ := h
  exact ⟨by rw [h1]; exact a, by rw [h2]; exact b, by rw [h2, h3]; exact c, by rw [h4]; exact d⟩

/-- Nothing is left to transmit. -/
theorem Left.done {X S : List U8} {K : List Packet} {s s' : Sock} (h : Left X S K s) (h1 : s'.txSize = s.txSize)
    (h2 : s'.txRd = s'.txLimit) (h3 : s'.stream = s.stream) (h4 : s'.packets = s.packets) : Left X S K s' := by
  obtain ⟨a, b, ⟨o, c1, c2⟩, d⟩ := h
  have hp : s'.pending = [] := by
    unfold pending
    rw [h2, BitVec.sub_self]
    rfl
  refine ⟨by rw [h1]; exact a, by rw [hp]; exact List.nil_suffix, ⟨o, by rw [h3, c1], ?_⟩, by rw [h4]; exact d⟩
  rw [hp, List.append_nil]
  exact (List.prefix_append _ _).trans c2

theorem stable_left (X S : List U8) (K : List Packet) : StableS (Left X S K) := by
  intro s a h
  have hpush : ∀ (c : Prop) [Decidable c] (bs : List U8), Left X S K (if c then s.push bs else s) := by
    intro c _ bs
    split
    · exact h.congr (by unfold txSize; rw [push_mem]) (push_pending _ _) (push_stream _ _) (push_packets _ _)
    · exact h
  cases a with
  | arrive bs => exact hpush _ _
  | datagram d => exact hpush _ _
  | frame f => exact hpush _ _
  | transmit k =>
    dsimp only [act]
    split
    · obtain ⟨a, b, ⟨o, c1, c2⟩, d⟩ := h
      have e : ring s.txMem s.txSize s.txRd (min k (s.txLimit - s.txRd).toNat) ++
          ring s.txMem s.txSize (s.txRd + BitVec.ofNat 16 (min k (s.txLimit - s.txRd).toNat))
            (s.txLimit - (s.txRd + BitVec.ofNat 16 (min k (s.txLimit - s.txRd).toNat))).toNat = s.pending := by
        rw [sub_add_toNat (Nat.min_le_right _ _), ← ring_add a.dvd]
        unfold pending
        congr 1
        omega
      refine ⟨a, ?_, ⟨o ++ ring s.txMem s.txSize s.txRd (min k (s.txLimit - s.txRd).toNat), ?_, ?_⟩, d⟩
      · refine List.IsSuffix.trans ?_ b
        exact ⟨_, e⟩
      · show s.stream ++ _ = _
        rw [c1, List.append_assoc]
      · rw [List.append_assoc]
        have e' : ring s.txMem s.txSize s.txRd (min k (s.txLimit - s.txRd).toNat) ++ pending { s with
            stream := s.stream ++ ring s.txMem s.txSize s.txRd (min k (s.txLimit - s.txRd).toNat)
            txRd := s.txRd + BitVec.ofNat 16 (min k (s.txLimit - s.txRd).toNat) } = s.pending := e
        rw [e']
        exact c2
    · exact h
  | ack k =>
    dsimp only [act]
    split
    · exact h.congr rfl rfl rfl rfl
    · exact h
  | emit d =>
    dsimp only [act]
    split
    · obtain ⟨a, b, ⟨o, c1, c2⟩, ⟨ps, d1, d2⟩⟩ := h
      have hp : ∀ t : Sock, t.txRd = t.txLimit → t.pending = [] := by
        intro t ht
        unfold pending
        rw [ht, BitVec.sub_self]
        rfl
      refine ⟨a, ?_, ⟨o, c1, ?_⟩, ⟨ps ++ [⟨[s.mem 0x0C, s.mem 0x0D, s.mem 0x0E, s.mem 0x0F], [s.mem 0x10, s.mem 0x11],
        s.pending, d⟩], ?_, ?_⟩⟩
      · rw [hp _ rfl]
        exact List.nil_suffix
      · rw [hp _ rfl, List.append_nil]
        exact (List.prefix_append _ _).trans c2
      · show s.packets ++ _ = _
        rw [d1, List.append_assoc]
      · intro x hx
        rcases List.mem_append.mp hx with hx | hx
        · exact d2 x hx
        · rw [List.mem_singleton.mp hx]
          exact b
    · exact h
  | raise b => exact h.congr rfl rfl rfl rfl
  | status x => exact h.congr rfl rfl rfl rfl

theorem Left.start {s : Sock} (h : GoodSize s.txSize) : Left s.pending s.stream s.packets s :=
  ⟨h, List.suffix_refl _, ⟨[], by simp⟩, ⟨[], by simp⟩⟩

theorem Left.setMem {X S : List U8} {K : List Packet} {s : Sock} (h : Left X S K s) (a : U16) (x : U8) (ha : a ≠ 0x1F) :
    Left X S K (s.setMem a x) := by
  have e : (s.setMem a x).txSize = s.txSize := by
    show 1024 * (if (0x1F : U16) = a then x else s.mem 0x1F).toNat = _
    rw [if_neg (Ne.symm ha)]
    rfl
  refine h.congr e ?_ rfl rfl
  unfold pending
  rw [e]
  rfl

/-- Write frames of opening and connecting a socket: commands OPEN, CONNECT, CLOSE, and the registers Sn_MR, Sn_IR,
Sn_PORT, Sn_DIPR, Sn_DPORT, Sn_IMR. -/
def OpenFrames (s : Socket) (b : U8) (a : U16) (d : List U8) : Prop :=
  (b = s.register ∧ a = 0x01 ∧ (d = [0x01] ∨ d = [0x04] ∨ d = [0x10])) ∨
  (b = s.register ∧ (a, d.length) ∈ [((0x00 : U16), 1), (0x02, 1), (0x04, 2), (0x0C, 4), (0x10, 2), (0x2C, 1)])

theorem Left.command {X S : List U8} {K : List Packet} {s : Sock} (h : Left X S K s) {x : U8}
    (hx : x = 0x01 ∨ x = 0x04 ∨ x = 0x10) : Left X S K (s.command x) := by
  rcases hx with rfl | rfl | rfl
  · exact h.done rfl rfl rfl rfl
  · unfold Sock.command
    rw [if_neg (by decide), if_neg (by decide), if_pos rfl]
    unfold connecting
    split
    · exact h.done rfl rfl rfl rfl
    · exact h.congr rfl rfl rfl rfl
  · exact h.congr rfl rfl rfl rfl

theorem reach_left {n : Nat} (hn : n < 8) {X S : List U8} {K : List Packet} {c c' : Chip}
    (h : Reach (Chip.dev sched faults).bus (OpenFrames (sockOf n)) c c') (hc : At n (Left X S K) c) :
    At n (Left X S K) c' := by
  have hst := stable_left X S K
  refine h.induct (I := At n (Left X S K)) (fun w b a d hi => (hst.at n) _ _ (Chip.readFrame_evolves w b a d) hi) ?_ hc
  intro w b a d hf hw
  have := (Chip.hoare_write (sched := sched) (faults := faults) (I := fun _ => At n (Left X S K)) b a d
    (fun _ _ _ => hst.at n) (fun i hi c hc => by
      have key : b = (sockOf n).register ∧ (a + BitVec.ofNat 16 i = 0x01 → d[i] = 0x01 ∨ d[i] = 0x04 ∨ d[i] = 0x10) ∧
          a + BitVec.ofNat 16 i ≠ 0x1F := by
        rcases hf with ⟨rfl, rfl, h⟩ | ⟨rfl, h⟩
        · have hl : d.length = 1 := by rcases h with rfl | rfl | rfl <;> rfl
          obtain rfl := index_one hl hi
          exact ⟨rfl, fun _ => by rcases h with rfl | rfl | rfl <;> simp, by decide⟩
        · refine ⟨rfl, ?_⟩
          have : ∀ l, (a, l) ∈ [((0x00 : U16), 1), (0x02, 1), (0x04, 2), (0x0C, 4), (0x10, 2), (0x2C, 1)] → i < l →
              a + BitVec.ofNat 16 i ≠ 0x01 ∧ a + BitVec.ofNat 16 i ≠ 0x1F := by
            clear hi
            intro l h hi
            simp only [List.mem_cons, Prod.mk.injEq, List.not_mem_nil, or_false] at h
            rcases h with ⟨rfl, rfl⟩ | ⟨rfl, rfl⟩ | ⟨rfl, rfl⟩ | ⟨rfl, rfl⟩ | ⟨rfl, rfl⟩ | ⟨rfl, rfl⟩ <;>
              (revert i; decide)
          have this := this _ h hi
          exact ⟨fun e => absurd e this.1, this.2⟩
      obtain ⟨rfl, hcmd, hne⟩ := key
      rw [Chip.poke_reg hn]
      show Left X S K _
      rw [Chip.setSock_self]
      unfold Sock.pokeReg
      split
      · rename_i e
        exact Left.command hc (hcmd e)
      · split
        · exact Left.congr hc rfl rfl rfl rfl
        · split
          · exact hc
          · exact Left.setMem hc _ _ hne)).run w hw
  unfold Bus.write at this
  generalize (Chip.dev sched faults).bus.writeFrame w b a d = r at this
  obtain ⟨_ | _ | _ | _, c'⟩ := r
  · exact this
  all_goals exact this.elim fun _ h => h.2

section moves
variable {W E : Type} {B : Bus W E}

macro "opens" : tactic => `(tactic| (moves <;> exact MovesOn.write (Or.inl ⟨rfl, rfl, by decide⟩)))

theorem opens_udpOpen (u : UdpSocket) : MovesOn B (OpenFrames u.socket) id (u.open B) := by
  unfold UdpSocket.open Socket.command Socket.resetInterrupt Socket.setSourcePort Socket.setMode Socket.setInterruptMask
  opens

theorem opens_tcpReopen (t : TcpSocket) : MovesOn B (OpenFrames t.socket) id (t.reopen B) := by
  unfold TcpSocket.reopen Socket.command Socket.resetInterrupt Socket.setMode Socket.setInterruptMask
  opens

theorem opens_tcpClose (t : TcpSocket) : MovesOn B (OpenFrames t.socket) id (t.socketClose B) := by
  unfold TcpSocket.socketClose Socket.command Socket.setMode
  opens

theorem opens_tcpOpen (t : TcpSocket) (port : U16) : MovesOn B (OpenFrames t.socket) id (t.open B port) := by
  unfold TcpSocket.open Socket.command Socket.resetInterrupt Socket.setSourcePort Socket.setMode Socket.setInterruptMask
  opens

theorem opens_connectLoop (t : TcpSocket) (fuel : Nat) : MovesOn B (OpenFrames t.socket) id (t.connectLoop B fuel) := by
  have h1 := opens_tcpReopen (B := B) t
  have h2 := opens_tcpClose (B := B) t
  induction fuel with
  | zero => exact .outOfFuel
  | succ n ih => unfold TcpSocket.connectLoop Socket.getStatus; opens

theorem opens_socketConnect (t : TcpSocket) (fuel : Nat) (remote : SockAddr4) :
    MovesOn B (OpenFrames t.socket) id (t.socketConnect B fuel remote) := by
  have h1 := opens_tcpReopen (B := B) t
  have h2 := opens_tcpClose (B := B) t
  have h3 := opens_connectLoop (B := B) t fuel
  unfold TcpSocket.socketConnect Socket.getStatus Socket.setDestinationIp Socket.setDestinationPort Socket.command
  opens

end moves

theorem opens_tcp (t : TcpSocket) (port : U16) (fuel : Nat) (remote : SockAddr4) {W E : Type} {B : Bus W E} :
    MovesOn B (OpenFrames t.socket) id (do t.open B port; t.socketConnect B fuel remote) :=
  .bind (opens_tcpOpen t port) fun _ => opens_socketConnect t fuel remote

/-! ## The calls that open a socket -/

/-- What `connect` of a TCP socket leaves behind. -/
theorem tcp_residue {H : Type} {n : Nat} (hn : n < 8) {fuel : Nat} {remote : SockAddr} {d d' : Device Chip H}
    (hz : SizesOk (d.bus.socks n).mem)
    (h : Device.tcpConnect (Chip.dev sched faults).bus fuel ⟨sockOf n⟩ remote d = (.ok (), d')) :
    ∃ during out, (d'.bus.socks n).arrived = (d.bus.socks n).arrived ++ during ++ (d'.bus.socks n).queue ∧
      out <+: (d.bus.socks n).pending ∧ (d'.bus.socks n).stream = (d.bus.socks n).stream ++ out := by
  obtain ⟨r4, rfl, ⟨S, A, hf⟩, _⟩ := tcpConnect_idle hn hz h
  unfold Device.tcpConnect at h
  have hrun := onBus_run h
  have hm := (opens_tcp (B := (Chip.dev sched faults).bus) ⟨sockOf n⟩ (49849 + BitVec.setWidth 16 (sockOf n).index) fuel r4).run d.bus
  have hl : At n (Left (d.bus.socks n).pending (d.bus.socks n).stream (d.bus.socks n).packets) d'.bus := by
    rw [hrun] at hm
    exact reach_left hn hm (Left.start hz.1 : Left _ _ _ (d.bus.socks n))
  obtain ⟨c1, h1, h2⟩ := blank_run (fun p => Rel.bindEq (rel_tcpOpen (Chip.past_respects p) trivial _) fun _ =>
    rel_tcpConnect (Chip.past_respects p) trivial fuel r4) hrun
  have hb : Device.tcpConnect (H := Unit) (Chip.dev sched faults).bus fuel ⟨sockOf n⟩ (.v4 r4) ⟨d.bus.blank, DeviceState.new ()⟩ =
      (.ok (), ⟨c1, DeviceState.new ()⟩) := by
    unfold Device.tcpConnect Device.onBus M.zoom
    dsimp only
    rw [h1]
  obtain ⟨_, _, ⟨S', A', hf'⟩, _⟩ := tcpConnect_idle hn (d := ⟨d.bus.blank, DeviceState.new ()⟩) hz hb
  have ha := hf'.1.rx.core.arrived
  obtain ⟨o, ho, hp⟩ := hl.stream
  rw [hf.stream.2, List.append_nil] at hp
  refine ⟨A', o, ?_, hp, ho⟩
  rw [h2]
  show (d.bus.socks n).arrived ++ (c1.socks n).arrived = _ ++ _ ++ (c1.socks n).queue
  rw [List.append_assoc, ← ha]

/-- A UDP socket opened without a past. -/
theorem udp_blank {H : Type} {n : Nat} {u u' : UdpSocket} {d d' : Device Chip H} (hu : u.socket = sockOf n)
    (h : UdpOpening sched faults u d u' d') :
    ∃ c1, UdpOpening sched faults u ⟨d.bus.blank, d.state⟩ u' ⟨c1, d.state⟩ ∧ d'.bus = c1.past d.bus.history := by
  have key : ∀ {m : M (UdpSocket × Chip) (UdpSocketError E) Unit},
      (∀ p, Rel (OnSock (sockOf n) fun c c' : Chip => c = c'.past p) Eq m m) → m (u, d.bus) = (.ok (), (u', d'.bus)) →
      ∃ c1, m (u, d.bus.blank) = (.ok (), (u', c1)) ∧ d'.bus = c1.past d.bus.history := by
    intro m hm hr
    obtain ⟨h1, h2⟩ := (hm d.bus.history).run (u, d.bus) (u, d.bus.blank) ⟨hu, rfl, d.bus.blank_past.symm⟩
    rw [hr] at h1 h2
    obtain ⟨_, h3, h4⟩ := h2
    refine ⟨(m (u, d.bus.blank)).2.2, ?_, h4⟩
    refine Prod.ext (Res.same_eq.mp h1).symm (Prod.ext ?_ rfl)
    exact h3.symm
  cases h with
  | bind port h =>
    unfold Device.udpBind at h
    obtain ⟨c1, h1, h2⟩ := key (fun p => rel_udpBindBus (Chip.past_respects p) trivial port) (onSockBus_run h)
    refine ⟨c1, .bind port ?_, h2⟩
    unfold Device.udpBind Device.onSockBus M.zoom
    dsimp only
    rw [h1]
  | connect remote h =>
    unfold Device.udpConnect at h
    split at h
    · cases h
    rename_i r4
    obtain ⟨c1, h1, h2⟩ := key (fun p => rel_udpConnectBus (Chip.past_respects p) trivial r4) (onSockBus_run h)
    refine ⟨c1, .connect (.v4 r4) ?_, h2⟩
    unfold Device.udpConnect Device.onSockBus M.zoom
    dsimp only
    rw [h1]

theorem udpOpening_inv {H : Type} {n : Nat} (hn : n < 8) {u u' : UdpSocket} {d d' : Device Chip H} (h : UdpObject n u d.bus)
    (ho : UdpOpening sched faults u d u' d') :
    ∃ A, UdpInv n (d'.bus.socks n).txSize (d'.bus.socks n).packets A [] [] u' d'.bus := by
  cases ho with
  | bind port hr => exact bind_inv hn h hr
  | connect remote hr => exact connect_inv hn h hr

theorem udpOpening_left {H : Type} {n : Nat} (hn : n < 8) {X S : List U8} {K : List Packet} {u u' : UdpSocket}
    {d d' : Device Chip H} (h : UdpObject n u d.bus)
    (ho : UdpOpening sched faults u d u' d') (hl : At n (Left X S K) d.bus) : At n (Left X S K) d'.bus := by
  have hopen : ∀ u : UdpSocket, u.socket = sockOf n → Hoare (At n (Left X S K)) (u.open (Chip.dev sched faults).bus)
      (fun _ => At n (Left X S K)) (At n (Left X S K)) := fun u hu =>
    (opens_udpOpen u).hoare fun c c' h => reach_left hn (hu ▸ h)
  cases ho with
  | bind port hr =>
    have := (udp_bind (sched := sched) (faults := faults) hn u h.sock port (stable_left X S K)
      (fun s a x ha h => h.setMem a x (by rcases ha with rfl | rfl <;> decide)) (fun _ h => h) (hopen { u with port := port } h.sock)).run (u, d.bus) ⟨rfl, hl⟩
    unfold Device.udpBind at hr
    rw [onSockBus_run hr] at this
    exact this.2
  | connect remote hr =>
    unfold Device.udpConnect at hr
    split at hr
    · cases hr
    rename_i a
    have := (udp_connect (sched := sched) (faults := faults) hn u h.sock (hopen u h.sock) (stable_left X S K)
      (fun s a x _ _ h2 h => h.setMem a x h2) (fun _ h => h) a).run (u, d.bus) ⟨rfl, hl, h.coherent⟩
    rw [onSockBus_run hr] at this
    exact this.2.1

/-- What `bind` and `connect` of a UDP socket leave behind. -/
theorem udp_residue {H : Type} {n : Nat} (hn : n < 8) {u u' : UdpSocket} {d d' : Device Chip H} (h : UdpObject n u d.bus)
    (ho : UdpOpening sched faults u d u' d') :
    ∃ during old, (d'.bus.socks n).arrived = (d.bus.socks n).arrived ++ during ++ (d'.bus.socks n).queue ∧
      (d'.bus.socks n).packets = (d.bus.socks n).packets ++ old ∧ ∀ p ∈ old, p.data <:+ (d.bus.socks n).pending := by
  have hl := udpOpening_left hn h ho (Left.start h.sizes.1 : Left _ _ _ (d.bus.socks n))
  obtain ⟨c1, h1, h2⟩ := udp_blank h.sock ho
  obtain ⟨A, hi⟩ := udpOpening_inv hn (d := ⟨d.bus.blank, d.state⟩) ⟨h.sock, h.sizes, h.coherent⟩ h1
  obtain ⟨_, _, _, ds, _, _, hi⟩ := hi
  have ha : (c1.socks n).arrived = A ++ encAll ds ++ (c1.socks n).queue := hi.idle.rx.core.arrived
  obtain ⟨old, ho1, ho2⟩ := hl.packets
  refine ⟨A ++ encAll ds, old, ?_, ho1, ho2⟩
  rw [h2]
  show (d.bus.socks n).arrived ++ (c1.socks n).arrived = _ ++ _ ++ (c1.socks n).queue
  rw [List.append_assoc, ← ha]

/-- Nothing is left to transmit; since the chip had `K` and `X` to transmit, packets left with data of `X`. -/
def Done (X : List U8) (K : List Packet) (s : Sock) : Prop :=
  s.txRd = s.txLimit ∧ ∃ ps, s.packets = K ++ ps ∧ ∀ p ∈ ps, p.data <:+ X

theorem stable_done (X : List U8) (K : List Packet) : StableS (Done X K) := by
  intro s a h
  have hpush : ∀ (c : Prop) [Decidable c] (bs : List U8), Done X K (if c then s.push bs else s) := by
    intro c _ bs
    split
    · unfold Done
      rw [push_txRd, push_txLimit, push_packets]
      exact h
    · exact h
  cases a with
  | arrive bs => exact hpush _ _
  | datagram d => exact hpush _ _
  | frame f => exact hpush _ _
  | transmit k =>
    dsimp only [act]
    split
    · refine ⟨?_, h.2⟩
      show s.txRd + BitVec.ofNat 16 (min k (s.txLimit - s.txRd).toNat) = s.txLimit
      rw [h.1, BitVec.sub_self]
      simp
    · exact h
  | ack k =>
    dsimp only [act]
    split
    · exact h
    · exact h
  | emit d =>
    dsimp only [act]
    rw [if_neg fun e => e.2 h.1]
    exact h
  | raise b => exact h
  | status x => exact h

/-- What `initialize_macraw` leaves behind. -/
theorem raw_residue {c0 c : Chip} (mac : Mac) {r : RawDevice} (hz : GoodSize (c0.socks 0).txSize)
    (h : Uninit.initializeMacraw (Chip.dev sched faults).bus mac c0 = (.ok r, c)) :
    ∃ during old, (c.socks 0).arrived = (c0.socks 0).arrived ++ during ++ (c.socks 0).queue ∧
      (c.socks 0).packets = (c0.socks 0).packets ++ old ∧ ∀ p ∈ old, p.data <:+ (c0.socks 0).pending := by
  have hd : At 0 (Done (c0.socks 0).pending (c0.socks 0).packets) c := by
    have h0 : (0 : Nat) < 8 := by decide
    generalize hX : (c0.socks 0).pending = X
    generalize hK : (c0.socks 0).packets = K
    have hst := stable_done X K
    have hreset : Hoare (At 0 (Left X (c0.socks 0).stream K))
        ((Chip.dev sched faults).bus.write COMMON common.MODE [0x80]) (fun _ => At 0 (Done X K)) (fun _ => True) := by
      refine .exc (.post (Chip.hoare_write1 ((stable_left X (c0.socks 0).stream K).at 0) _ _ _) ?_) fun _ _ => trivial
      rintro _ _ ⟨c, hc, rfl⟩
      exact ⟨rfl, hc.packets⟩
    have hmac : Hoare (At 0 (Done X K)) ((Chip.dev sched faults).bus.write COMMON common.MAC mac.octets)
        (fun _ => At 0 (Done X K)) (fun _ => True) := by
      refine .exc (hs_foreign hst _ _ _ ?_) fun _ _ => trivial
      unfold Foreign
      rw [if_pos (by decide)]
      intro i hi e
      have key : ∀ i, i < 6 → common.MAC + BitVec.ofNat 16 i ≠ 0x00 := by decide
      exact absurd e (key i hi)
    have hw : ∀ a x, a ≠ 0x01 → Hoare (At 0 (Done X K)) ((Chip.dev sched faults).bus.write (sockOf 0).register a [x])
        (fun _ => At 0 (Done X K)) (fun _ => True) := fun a x ha =>
      .exc (hs_write1 h0 hst _ _ fun s h => by
        unfold Sock.pokeReg
        rw [if_neg ha]
        repeat' split
        all_goals exact h) fun _ _ => trivial
    have hopen : Hoare (At 0 (Done X K)) ((Chip.dev sched faults).bus.write (sockOf 0).register 0x01 [0x01])
        (fun _ => At 0 (Done X K)) (fun _ => True) :=
      .exc (hs_write1 h0 hst _ _ fun s h => ⟨rfl, h.2⟩) fun _ _ => trivial
    have hnew : Hoare (At 0 (Done X K)) (RawDevice.new (Chip.dev sched faults).bus) (fun _ => At 0 (Done X K)) (fun _ => True) := by
      unfold RawDevice.new
      exact .mapErr (.bind (hw _ _ (by decide)) fun _ => .bind (hw _ _ (by decide)) fun _ =>
        .bind (.exc (hs_clearBuffers hst _ (by decide)) fun _ _ => trivial) fun _ => .bind (hw _ _ (by decide)) fun _ =>
        .bind hopen fun _ => .pure fun _ h => h)
    unfold Uninit.initializeMacraw at h
    exact (Hoare.bind (.mapErr hreset) fun _ => .bind (.mapErr hmac) fun _ => hnew).ok (s := c0)
      (hX ▸ hK ▸ (Left.start hz : Left _ _ _ (c0.socks 0))) h
  obtain ⟨c1, h1, h2⟩ := blank_run (fun p => rel_initializeMacraw (Chip.past_respects p) trivial (fun _ _ => trivial) mac) h
  obtain ⟨_, _, A, hi⟩ := rawOpened (.init mac h1)
  have ha := hi.busy.core.arrived
  obtain ⟨_, old, ho1, ho2⟩ := hd
  refine ⟨A, old, ?_, ho1, ho2⟩
  rw [h2]
  show (c0.socks 0).arrived ++ (c1.socks 0).arrived = _ ++ _ ++ (c1.socks 0).queue
  rw [List.append_assoc, ← ha]

end W5500.Spec
