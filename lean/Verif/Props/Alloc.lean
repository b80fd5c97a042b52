import Verif.Proofs.Client
/-! # Socket allocation: C14 – C18

`Client.run B fuel (Client.initial w host) ops` is an arbitrary history `ops` of API calls on a freshly
initialised device, with an arbitrary bus `B` (whose transfers may fail at any point). -/

namespace W5500.Props
open W5500 W5500.Spec
variable {W E H : Type}

/-! ## C14 No socket is handed out twice -/

/-- C14: in every history, the sockets alive at the same time have pairwise different indices below 8 (and each
is the socket object of its index). -/
theorem C14_live_sockets_distinct (B : Bus W E) (fuel : Nat) (w : W) (host : H) (ops : List (Op W)) :
    let c := Client.run B fuel (Client.initial w host) ops
    (c.live.map Handle.index).Nodup ∧
    ∀ h ∈ c.live, h.index < 8 ∧ h.socket = Socket.new (BitVec.ofNat 8 h.index) := by
  intro c
  have hi : AllocInv c := (allocInv_initial w host).run fuel ops
  refine ⟨(List.nodup_append.mp hi.nodup).1, fun h hh => ⟨hi.bound _ ?_, hi.canonical h hh⟩⟩
  exact List.mem_append_left _ (List.mem_map_of_mem hh)

/-- A bus on which every transfer succeeds and reads return zeros, used in examples. -/
def okBus : Bus Unit Unit where
  readFrame w _ _ d := (.ok (), d, w)
  writeFrame w _ _ _ := (.ok (), w)
  read_length _ _ _ _ := rfl

/-- A bus on which every transfer fails. -/
def badBus : Bus Unit Unit where
  readFrame w _ _ d := (.err (), d, w)
  writeFrame w _ _ _ := (.err (), w)
  read_length _ _ _ _ := rfl

/-- A history that reaches three live sockets 1, 2, 0: slot 0 was closed and handed out again. -/
example :
    ((Client.run okBus 5 (Client.initial () ()) [.udpSocket, .tcpSocket, .takeSocket, .udpClose 0,
      .udpSocket]).live.map Handle.index) = [1, 2, 0] := by decide

/-! ## C15 Allocation fails exactly when all eight slots are taken -/

theorem length_le_of_nodup_subset {l m : List Nat} (hn : l.Nodup) (hs : ∀ x ∈ l, x ∈ m) :
    l.length ≤ m.length := by
  induction l generalizing m with
  | nil => simp
  | cons a l ih =>
    have ha : a ∈ m := hs a (by simp)
    have hn' := List.nodup_cons.mp hn
    have := ih (m := m.erase a) hn'.2 (fun x hx => by
      have hxa : x ≠ a := fun h => hn'.1 (h ▸ hx)
      exact (List.mem_erase_of_ne hxa).mpr (hs x (List.mem_cons_of_mem _ hx)))
    rw [List.length_erase_of_mem ha] at this
    have hpos : 0 < m.length := List.length_pos_of_mem ha
    simp only [List.length_cons]; omega

theorem held_full {c : Client W H} (hi : AllocInv c) :
    (∀ j, j < 8 → j ∈ c.held) ↔ c.held.length = 8 := by
  have hle : c.held.length ≤ (List.range 8).length :=
    length_le_of_nodup_subset hi.nodup (fun x hx => List.mem_range.mpr (hi.bound x hx))
  constructor
  · intro h
    have := length_le_of_nodup_subset (l := List.range 8) (m := c.held) List.nodup_range
      (fun x hx => h x (List.mem_range.mp hx))
    simp only [List.length_range] at this hle; omega
  · intro h j hj
    apply Classical.byContradiction
    intro hnot
    have := length_le_of_nodup_subset (l := j :: c.held) (m := List.range 8)
      (List.nodup_cons.mpr ⟨hnot, hi.nodup⟩) (by
        intro x hx
        rcases List.mem_cons.mp hx with rfl | hx
        · exact List.mem_range.mpr hj
        · exact List.mem_range.mpr (hi.bound x hx))
    simp only [List.length_cons, List.length_range] at this; omega

/-- C15: `take_socket` in any reachable state. Outstanding are the slots of live handles and the lost ones. If
eight are outstanding it returns `None` and changes nothing; otherwise it returns the socket of the lowest index
that is not outstanding. The bus is not used in either case. -/
theorem C15_take_socket (B : Bus W E) (fuel : Nat) (w : W) (host : H) (ops : List (Op W)) :
    let c := Client.run B fuel (Client.initial w host) ops
    let outstanding := c.live.map Handle.index ++ c.lost
    (outstanding.length = 8 → Device.takeSocket (E := E) c.dev = (.ok none, c.dev)) ∧
    (outstanding.length ≠ 8 → ∃ i st, i < 8 ∧ i ∉ outstanding ∧ (∀ j, j < i → j ∈ outstanding) ∧
      Device.takeSocket (E := E) c.dev =
        (.ok (some (Socket.new (BitVec.ofNat 8 i))), { bus := c.dev.bus, state := st })) := by
  intro c outstanding
  have hi : AllocInv c := (allocInv_initial w host).run fuel ops
  have hfull := held_full hi
  change _ ↔ outstanding.length = 8 at hfull
  rcases socket_spec c.dev.state with ⟨i, h8, hlow, hbit, hr⟩ | ⟨hall, hr⟩
  · have hfree : i ∉ outstanding := by
      intro hm; rw [(hi.taken i h8).mpr hm] at hbit; cases hbit
    refine ⟨fun h => absurd (hfull.mpr h i h8) hfree, fun _ => ⟨i, { c.dev.state with sockets := setBit c.dev.state.sockets i false }, h8, hfree, ?_, ?_⟩⟩
    · intro j hj; exact (hi.taken j (by omega)).mp (hlow j hj)
    · unfold Device.takeSocket; rw [hr]
  · have h8 : outstanding.length = 8 := hfull.mp (fun j hj => (hi.taken j hj).mp (hall j hj))
    refine ⟨fun _ => ?_, fun h => absurd h8 h⟩
    unfold Device.takeSocket; rw [hr]

/-- C15: UDP and TCP `socket()` fail with `NoMoreSockets` exactly when `take_socket` returns `None`, and otherwise
wrap the socket it returns; they touch nothing else. -/
theorem C15_socket_calls (d : Device W H) :
    (∀ d', Device.takeSocket (E := E) d = (.ok none, d') →
      Device.udpSocket (E := E) d = (.err .noMoreSockets, d') ∧
      Device.tcpSocket (E := E) d = (.err .noMoreSockets, d')) ∧
    (∀ s d', Device.takeSocket (E := E) d = (.ok (some s), d') →
      (∃ u, u.socket = s ∧ Device.udpSocket (E := E) d = (.ok u, d')) ∧
      (∃ t, t.socket = s ∧ Device.tcpSocket (E := E) d = (.ok t, d'))) := by
  constructor
  · intro d' h
    simp only [Device.takeSocket, Prod.mk.injEq, Res.ok.injEq] at h
    constructor
    · simp only [Device.udpSocket, M.bind_def, Device.takeSocket, h.1]
      rw [h.2]; rfl
    · simp only [Device.tcpSocket, M.bind_def, Device.takeSocket, h.1]
      rw [h.2]; rfl
  · intro s d' h
    simp only [Device.takeSocket, Prod.mk.injEq, Res.ok.injEq] at h
    constructor
    · refine ⟨UdpSocket.new s, rfl, ?_⟩
      simp only [Device.udpSocket, M.bind_def, Device.takeSocket, h.1]
      rw [h.2]; rfl
    · refine ⟨⟨s⟩, rfl, ?_⟩
      simp only [Device.tcpSocket, M.bind_def, Device.takeSocket, h.1]
      rw [h.2]; rfl

/-- Both cases of C15 occur: nine allocations on a fresh device. -/
example :
    ((Client.run okBus 5 (Client.initial () ()) (List.replicate 8 .takeSocket)).live.map Handle.index) =
      [0, 1, 2, 3, 4, 5, 6, 7] ∧
    (Device.takeSocket (E := Unit)
      (Client.run okBus 5 (Client.initial () ()) (List.replicate 8 .takeSocket)).dev).1 = .ok none := by decide

/-! ## C16 A slot is returned iff close succeeds -/

/-- The two writes a close has to make on socket `n`: protocol mode 0, then the CLOSE command 0x10. The second is
attempted only if the first succeeds. -/
def closeWrites (B : Bus W E) (n : Nat) (w : W) : Res E Unit × W :=
  match B.writeFrame w (BitVec.ofNat 8 (4 * n + 1)) 0x00 [0x00] with
  | (.ok _, w1) => B.writeFrame w1 (BitVec.ofNat 8 (4 * n + 1)) 0x01 [0x10]
  | r => r

theorem new_register {n : Nat} (hn : n < 8) :
    (Socket.new (BitVec.ofNat 8 n)).register = BitVec.ofNat 8 (4 * n + 1) := by
  have hn' : n = 0 ∨ n = 1 ∨ n = 2 ∨ n = 3 ∨ n = 4 ∨ n = 5 ∨ n = 6 ∨ n = 7 := by omega
  rcases hn' with rfl | rfl | rfl | rfl | rfl | rfl | rfl | rfl <;> rfl

theorem close_writes_eq (B : Bus W E) {n : Nat} (hn : n < 8) (s : Socket)
    (hs : s = Socket.new (BitVec.ofNat 8 n)) (w : W) :
    (s.setMode B .closed >>= fun _ => s.command B .close) w = closeWrites B n w := by
  subst hs
  simp only [M.bind_def, Socket.setMode, Socket.command, Bus.write, closeWrites, new_register hn]
  have e1 : socketn.MODE = 0x00 := rfl
  have e2 : socketn.COMMAND = 0x01 := rfl
  have e3 : socketn.Protocol.closed.toU8 = 0x00 := rfl
  have e4 : socketn.Command.close.toU8 = 0x10 := rfl
  rw [e1, e2, e3, e4]
  generalize B.writeFrame w (BitVec.ofNat 8 (4 * n + 1)) 0x00 [0x00] = r
  obtain ⟨_ | _ | _ | _, t⟩ := r <;> rfl

/-- What a close of the handle `h` at position `i` is. -/
def closeOp (W : Type) (h : Handle) (i : Nat) : Op W :=
  match h with
  | .udp _ => .udpClose i
  | .tcp _ => .tcpClose i
  | .raw _ => .releaseSocket i

theorem close_result (B : Bus W E) (d : Device W H) (n : Nat) (hn : n < 8) (u : UdpSocket)
    (t : TcpSocket) (hu : u.socket = Socket.new (BitVec.ofNat 8 n))
    (ht : t.socket = Socket.new (BitVec.ofNat 8 n)) :
    match closeWrites B n d.bus with
    | (.ok _, w) =>
      let d' : Device W H := { bus := w, state := { d.state with sockets := setBit d.state.sockets n true } }
      Device.udpClose B u d = (.ok (), d') ∧ Device.tcpClose B t d = (.ok (), d')
    | (.err e, w) =>
      Device.udpClose B u d = (.err (.other e), { d with bus := w }) ∧
      Device.tcpClose B t d = (.err (.other e), { d with bus := w })
    | (.panic, w) =>
      Device.udpClose B u d = (.panic, { d with bus := w }) ∧
      Device.tcpClose B t d = (.panic, { d with bus := w })
    | (.fuel, w) =>
      Device.udpClose B u d = (.fuel, { d with bus := w }) ∧
      Device.tcpClose B t d = (.fuel, { d with bus := w }) := by
  have hui : u.socket.index.toNat = n := by rw [hu]; exact socket_new_index n hn
  have hti : t.socket.index.toNat = n := by rw [ht]; exact socket_new_index n hn
  have hru : ∀ w : W, Device.releaseSocket (E := UdpSocketError E) u.socket { d with bus := w } =
      (.ok (), { bus := w, state := { d.state with sockets := setBit d.state.sockets n true } }) := by
    intro w; simp [Device.releaseSocket, DeviceState.releaseSocket, hui, hn]
  have hrt : ∀ w : W, Device.releaseSocket (E := TcpSocketError E) t.socket { d with bus := w } =
      (.ok (), { bus := w, state := { d.state with sockets := setBit d.state.sockets n true } }) := by
    intro w; simp [Device.releaseSocket, DeviceState.releaseSocket, hti, hn]
  have eu := close_writes_eq B hn u.socket hu d.bus
  have et := close_writes_eq B hn t.socket ht d.bus
  unfold Device.udpClose Device.tcpClose
  rw [M.bind_def, M.bind_def]
  simp only [Device.onBus, M.zoom, UdpSocket.socketClose,
    TcpSocket.socketClose, M.mapErr_def, eu, et]
  generalize closeWrites B n d.bus = r
  obtain ⟨_ | _ | _ | _, w⟩ := r
  · exact ⟨hru w, hrt w⟩
  all_goals exact ⟨rfl, rfl⟩

/-- The outcome of `close` on a UDP or TCP handle: `Ok` and bit `n` set iff both writes succeed; otherwise the bus
error is returned and the allocation state is unchanged. -/
theorem C16_close_result (B : Bus W E) (d : Device W H) (n : Nat) (hn : n < 8) (u : UdpSocket)
    (t : TcpSocket) (hu : u.socket = Socket.new (BitVec.ofNat 8 n))
    (ht : t.socket = Socket.new (BitVec.ofNat 8 n)) :
    match closeWrites B n d.bus with
    | (.ok _, w) =>
      let d' : Device W H := { bus := w, state := { d.state with sockets := d.state.sockets ||| (1#8 <<< n) } }
      Device.udpClose B u d = (.ok (), d') ∧ Device.tcpClose B t d = (.ok (), d')
    | (.err e, w) =>
      Device.udpClose B u d = (.err (.other e), { d with bus := w }) ∧
      Device.tcpClose B t d = (.err (.other e), { d with bus := w })
    | (.panic, w) =>
      Device.udpClose B u d = (.panic, { d with bus := w }) ∧
      Device.tcpClose B t d = (.panic, { d with bus := w })
    | (.fuel, w) =>
      Device.udpClose B u d = (.fuel, { d with bus := w }) ∧
      Device.tcpClose B t d = (.fuel, { d with bus := w }) := close_result B d n hn u t hu ht

/-- C16: in any reachable state, closing a live UDP or TCP socket `n` removes the handle, and slot `n` is free
afterwards iff both writes succeeded; otherwise it is lost. -/
theorem C16_freed_iff (B : Bus W E) (fuel : Nat) (w : W) (host : H) (ops : List (Op W)) (i : Nat)
    (h : Handle) :
    let c := Client.run B fuel (Client.initial w host) ops
    c.live[i]? = some h → (∀ s, h ≠ .raw s) →
    let c' := c.step B fuel (closeOp W h i)
    c'.live = c.live.eraseIdx i ∧
    (c'.dev.state.sockets.getLsbD h.index = true ↔ (closeWrites B h.index c.dev.bus).1 = .ok ()) ∧
    (h.index ∈ c'.lost ↔ (closeWrites B h.index c.dev.bus).1 ≠ .ok ()) := by
  intro c hg hraw c'
  have hi : AllocInv c := (allocInv_initial w host).run fuel ops
  have hm : h ∈ c.live := List.mem_of_getElem? hg
  have h8 : h.index < 8 := hi.bound _ (List.mem_append_left _ (List.mem_map_of_mem hm))
  have hcan := hi.canonical h hm
  have hheld : h.index ∈ c.held := List.mem_append_left _ (List.mem_map_of_mem hm)
  have htaken := (hi.taken _ h8).mpr hheld
  have hnl : h.index ∉ c.lost := fun hl => by
    have := (held_eraseIdx hg).nodup_iff.mp hi.nodup
    exact (List.nodup_cons.mp this).1 (List.mem_append_right _ hl)
  have hset : ∀ x : U8, (setBit x h.index true).getLsbD h.index = true := by
    intro x; rw [getLsbD_setBit _ _ _ _ h8 h8]; simp
  cases h with
  | raw s => exact absurd rfl (hraw s)
  | udp u =>
    have key := close_result B c.dev _ h8 u ⟨u.socket⟩ hcan hcan
    have hstep : c' = c.consume i (.udp u) (Device.udpClose B u c.dev) := by
      change Client.step B fuel c (.udpClose i) = _
      simp only [Client.step, hg]
    generalize closeWrites B (Handle.udp u).index c.dev.bus = r at key ⊢
    obtain ⟨_ | _ | _ | _, w'⟩ := r <;> simp only at key <;> rw [hstep, key.1] <;>
      simp [Client.consume, hset, hnl, htaken]
  | tcp t =>
    have key := close_result B c.dev _ h8 (UdpSocket.new t.socket) t hcan hcan
    have hstep : c' = c.consume i (.tcp t) (Device.tcpClose B t c.dev) := by
      change Client.step B fuel c (.tcpClose i) = _
      simp only [Client.step, hg]
    generalize closeWrites B (Handle.tcp t).index c.dev.bus = r at key ⊢
    obtain ⟨_ | _ | _ | _, w'⟩ := r <;> simp only at key <;> rw [hstep, key.2] <;>
      simp [Client.consume, hset, hnl, htaken]

theorem lost_step (B : Bus W E) (fuel : Nat) (c : Client W H) (o : Op W) (n : Nat) (hn : n ∈ c.lost) :
    n ∈ (c.step B fuel o).lost := by
  have hc : ∀ {ε α : Type} (i : Nat) (h : Handle) (r : Res ε α × Device W H), n ∈ (c.consume i h r).lost := by
    intro ε α i h r
    unfold Client.consume
    dsimp only
    split <;> simp [hn]
  have ha : ∀ {ε α : Type} (f : α → Handle) (r : Res ε α × Device W H), n ∈ (c.alloc f r).lost := by
    intro ε α f r
    unfold Client.alloc
    split <;> exact hn
  have hu : ∀ {ε α : Type} (i : Nat) (m : M (UdpSocket × Device W H) ε α), n ∈ (c.onUdp i m).lost := by
    intro ε α i m
    unfold Client.onUdp
    split <;> exact hn
  cases o <;> simp only [Client.step] <;> first
    | exact hc _ _ _
    | exact ha _ _
    | exact hu _ _
    | exact hn
    | (split <;> first | exact hc _ _ _ | exact hn | simp [hn])

/-- C16: a lost slot (failed close, or handle dropped without close) is never handed out again: in every
continuation no live handle has its index, and no allocation returns it. -/
theorem C16_lost_forever (B : Bus W E) (fuel : Nat) (w : W) (host : H) (before after : List (Op W)) (n : Nat) :
    let c := Client.run B fuel (Client.initial w host) before
    n ∈ c.lost →
    let c' := Client.run B fuel c after
    (∀ h ∈ c'.live, h.index ≠ n) ∧
    ∀ s d, Device.takeSocket (E := E) c'.dev = (.ok (some s), d) → s.index.toNat ≠ n := by
  intro c hn c'
  have hi : AllocInv c := (allocInv_initial w host).run fuel before
  have hi' : AllocInv c' := hi.run fuel after
  have hl : n ∈ c'.lost := by
    have : ∀ (ops : List (Op W)) (c : Client W H), n ∈ c.lost → n ∈ (Client.run B fuel c ops).lost := by
      intro ops
      induction ops with
      | nil => exact fun _ h => h
      | cons o os ih => exact fun c h => ih _ (lost_step B fuel c o n h)
    exact this after c hn
  constructor
  · intro h hh he
    have hd := (List.nodup_append.mp hi'.nodup).2.2
    exact hd _ (List.mem_map_of_mem hh) _ hl he
  · intro s d hs
    rcases socket_spec c'.dev.state with ⟨i, h8, -, hbit, hr⟩ | ⟨-, hr⟩
    · simp only [Device.takeSocket, hr, Prod.mk.injEq, Res.ok.injEq, Option.some.injEq] at hs
      rw [← hs.1, socket_new_index i h8]
      rintro rfl
      rw [(hi'.taken i h8).mpr (List.mem_append_right _ hl)] at hbit; cases hbit
    · simp [Device.takeSocket, hr] at hs

/-- A failed close loses slot 0; the next socket is number 1. -/
example :
    let c := Client.run badBus 5 (Client.initial () ()) [.udpSocket, .udpClose 0, .tcpSocket]
    c.live.map Handle.index = [1] ∧ c.lost = [0] := by decide

/-! ## C17 Device reset is refused while sockets are outstanding -/

theorem anyAllocated_iff (st : DeviceState H) :
    st.anyAllocated = true ↔ ∃ j, j < 8 ∧ st.sockets.getLsbD j = false := by
  unfold DeviceState.anyAllocated
  rw [decide_eq_true_iff]
  constructor
  · intro h
    apply Classical.byContradiction
    intro hno
    apply h
    apply BitVec.eq_of_getLsbD_eq
    intro i hi
    have h1 : st.sockets.getLsbD i = true := by
      cases hb : st.sockets.getLsbD i
      · exact absurd ⟨i, hi, hb⟩ hno
      · rfl
    have h2 : (0xFF#8).getLsbD i = true := by
      have hi' : i = 0 ∨ i = 1 ∨ i = 2 ∨ i = 3 ∨ i = 4 ∨ i = 5 ∨ i = 6 ∨ i = 7 := by omega
      rcases hi' with rfl | rfl | rfl | rfl | rfl | rfl | rfl | rfl <;> rfl
    rw [h1]; exact h2.symm
  · rintro ⟨j, hj, hb⟩ h
    rw [h] at hb
    have hj' : j = 0 ∨ j = 1 ∨ j = 2 ∨ j = 3 ∨ j = 4 ∨ j = 5 ∨ j = 6 ∨ j = 7 := by omega
    rcases hj' with rfl | rfl | rfl | rfl | rfl | rfl | rfl | rfl <;> cases hb

/-- C17: in any reachable state, if a slot is outstanding (live or lost) `reset` returns `SocketsNotReleased` and
leaves bus and state untouched; otherwise it is exactly one write of 0x80 to the common register 0, whose outcome
it reports. -/
theorem C17_reset (B : Bus W E) (fuel : Nat) (w : W) (host : H) (ops : List (Op W)) :
    let c := Client.run B fuel (Client.initial w host) ops
    (c.live ≠ [] ∨ c.lost ≠ [] → Device.reset B c.dev = (.err .socketsNotReleased, c.dev)) ∧
    (c.live = [] ∧ c.lost = [] → ∀ r w', B.writeFrame c.dev.bus 0 0 [0x80] = (r, w') →
      Device.reset B c.dev = (match r with
        | .ok _ => .ok ()
        | .err e => .err (.other e)
        | .panic => .panic
        | .fuel => .fuel, { c.dev with bus := w' })) := by
  intro c
  have hi : AllocInv c := (allocInv_initial w host).run fuel ops
  have hiff : c.dev.state.anyAllocated = true ↔ (c.live ≠ [] ∨ c.lost ≠ []) := by
    rw [anyAllocated_iff]
    constructor
    · rintro ⟨j, hj, hb⟩
      have := (hi.taken j hj).mp hb
      rcases List.mem_append.mp this with h | h
      · left; rintro h0; simp [h0] at h
      · right; exact List.ne_nil_of_mem h
    · intro h
      have : ∃ j, j ∈ c.held := by
        rcases h with h | h
        · obtain ⟨x, hx⟩ := List.exists_mem_of_ne_nil _ h
          exact ⟨_, List.mem_append_left _ (List.mem_map_of_mem hx)⟩
        · obtain ⟨x, hx⟩ := List.exists_mem_of_ne_nil _ h
          exact ⟨x, List.mem_append_right _ hx⟩
      obtain ⟨j, hj⟩ := this
      exact ⟨j, hi.bound j hj, (hi.taken j (hi.bound j hj)).mpr hj⟩
  have hget : Device.reset B c.dev = (if c.dev.state.anyAllocated then M.throw .socketsNotReleased
      else M.mapErr .other (Device.onBus (resetChip B)) : M (Device W H) (ResetError E) Unit) c.dev := rfl
  constructor
  · intro h
    rw [hget, if_pos (hiff.mpr h)]; rfl
  · intro h r w' hw
    have hn : ¬ c.dev.state.anyAllocated = true := by
      rw [hiff]; rintro (h' | h') <;> simp [h.1, h.2] at h'
    rw [hget, if_neg hn]
    have hw' : resetChip B c.dev.bus = (r, w') := hw
    simp only [M.mapErr_def, Device.onBus, M.zoom, hw']
    cases r <;> rfl

/-- Both cases occur. -/
example :
    (Client.run okBus 5 (Client.initial () ()) [.udpSocket]).live ≠ [] ∧
    (Client.run okBus 5 (Client.initial () ()) [.udpSocket, .udpClose 0]).live = [] ∧
    (Client.run okBus 5 (Client.initial () ()) [.udpSocket, .udpClose 0]).lost = [] := by decide

/-! ## C18 Deactivating and activating keeps the allocation state -/

/-- C18: whatever happens on the bus while the device is inactive, reactivation keeps the allocation state, the
host state and all sockets; only the bus differs. -/
theorem C18_reactivate_state (B : Bus W E) (fuel : Nat) (c : Client W H) (g : W → W) :
    c.step B fuel (.reactivate g) = { c with dev := { c.dev with bus := g c.dev.bus } } := rfl

/-- The history without deactivate/activate pairs. -/
def withoutReactivation {W : Type} (ops : List (Op W)) : List (Op W) :=
  ops.filter fun o => match o with
    | .reactivate _ => false
    | _ => true

/-- C18: in a history in which the bus is left alone while the device is inactive, all deactivate/activate pairs
can be deleted, at whatever points they occur, without changing the resulting device, sockets and bus. -/
theorem C18_reactivate_erasable (B : Bus W E) (fuel : Nat) (c : Client W H) (ops : List (Op W))
    (h : ∀ g, Op.reactivate g ∈ ops → g = id) :
    Client.run B fuel c ops = Client.run B fuel c (withoutReactivation ops) := by
  induction ops generalizing c with
  | nil => rfl
  | cons o os ih =>
    have ih' := fun c => ih c (fun g hg => h g (List.mem_cons_of_mem _ hg))
    change Client.run B fuel (c.step B fuel o) os = _
    rw [ih']
    cases o with
    | reactivate g =>
      have hg : g = id := h g (by simp)
      subst hg; rfl
    | _ => rfl

/-- C18: for arbitrary use of the bus in between, the set of outstanding slots still follows the calls: after any
history (with any reactivations) the slots marked as taken are exactly those of live handles and lost ones. -/
theorem C18_outstanding_exact (B : Bus W E) (fuel : Nat) (w : W) (host : H) (ops : List (Op W)) (i : Nat)
    (h8 : i < 8) :
    let c := Client.run B fuel (Client.initial w host) ops
    c.dev.state.sockets.getLsbD i = false ↔ i ∈ c.live.map Handle.index ∨ i ∈ c.lost := by
  intro c
  have hi : AllocInv c := (allocInv_initial w host).run fuel ops
  rw [hi.taken i h8]
  exact List.mem_append

example :
    (Client.run okBus 5 (Client.initial () ()) [.udpSocket, .reactivate id, .tcpSocket]).live.map Handle.index =
      [0, 1] := by decide

end W5500.Props
