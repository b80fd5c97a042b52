import Verif.Props.Alloc
import Verif.Proofs.Forge
/-! # C91 Handles cannot be confused

`Meddler.run B fuel (Meddler.initial w host) ops` is any history in which the client may also write to the public field `index` of its
raw sockets, initialise the bus anew while holding on to its handles, and use handles of other devices (Spec/Forge.lean).

The claim — no two handles the device handed out and the client still has share a slot — is false: a handle that was renumbered, or
kept over a new initialisation, can be used to free the slot of another one, which is then handed out again; and a new initialisation
by itself hands out the slots of all the handles that were kept. It holds as long as such handles are not closed. -/

namespace W5500.Props
open W5500 W5500.Spec
variable {W E H : Type}

/-- C91, what holds: as long as no renumbered, kept or foreign handle is closed or released — sending and receiving with them is
allowed —, the handles handed out by the present device, and not renumbered, have pairwise different indices below 8, each is the socket
object of its index, and none of their slots is free. -/
theorem C91_partial (B : Bus W E) (fuel : Nat) (w : W) (host : H) (ops : List (MOp W H)) (ho : ∀ o ∈ ops, o.closesAlien = false) :
    let c := Meddler.run B fuel (Meddler.initial w host) ops
    (c.own.live.map Handle.index).Nodup ∧
    ∀ h ∈ c.own.live, h.index < 8 ∧ h.socket = Socket.new (BitVec.ofNat 8 h.index) ∧
      c.own.dev.state.sockets.getLsbD h.index = false := by
  intro c
  have hi : AllocInv c.own := AllocInv.meddles (c := Meddler.initial w host) (allocInv_initial w host) fuel ho
  refine ⟨(List.nodup_append.mp hi.nodup).1, fun h hh => ?_⟩
  have hm : h.index ∈ c.own.held := List.mem_append_left _ (List.mem_map_of_mem hh)
  exact ⟨hi.bound _ hm, hi.canonical h hh, (hi.taken _ (hi.bound _ hm)).mpr hm⟩

/-- The slot of a handle is free: it is handed out a second time. -/
theorem handed_twice (B : Bus W E) (fuel : Nat) (c : Meddler W H) {h : Handle} (hm : h ∈ c.handles) (hn : h.index < 8)
    (hbit : c.own.dev.state.sockets.getLsbD h.index = true) :
    ∃ m, 2 ≤ ((c.run B fuel (List.replicate m (.own .takeSocket))).handles.map Handle.index).count h.index := by
  obtain ⟨m, l, hl⟩ := takes_reach (B := B) fuel hn h.index 0 c.own (by omega) (by omega) (fun j hj => absurd hj (by omega)) hbit
  refine ⟨m, ?_⟩
  have : List.replicate m (MOp.own (H := H) (.takeSocket : Op W)) = (List.replicate m .takeSocket).map .own := by simp
  rw [this, Meddler.run_own]
  have hi : (Handle.raw (Socket.new (BitVec.ofNat 8 h.index))).index = h.index := socket_new_index _ hn
  have h1 : 1 ≤ ((c.own.live.map Handle.index) ++ (c.alien.map Handle.index)).count h.index := by
    rw [← List.map_append]; exact List.count_pos_iff.mpr (List.mem_map_of_mem hm)
  simp only [Meddler.handles, hl, List.map_append, List.count_append, List.map_cons, List.map_nil, hi, List.count_singleton, BEq.rfl,
    if_true] at h1 ⊢
  omega

/-- C91 is false, renumbering: whatever the client did before (without closing alien handles), if it holds a handle `h` and, at
another position `i`, a raw socket, it can set the index of the latter to that of `h` and release it; after some calls of
`take_socket` it holds two handles handed out for the slot of `h`, both untouched. No bus transfer is involved. -/
theorem C91_renumber_refuted (B : Bus W E) (fuel : Nat) (w : W) (host : H) (ops : List (MOp W H)) (ho : ∀ o ∈ ops, o.closesAlien = false)
    {i j : Nat} {h : Handle} {s : Socket} (hij : i ≠ j)
    (hj : (Meddler.run B fuel (Meddler.initial w host) ops).own.live[j]? = some h)
    (hs : (Meddler.run B fuel (Meddler.initial w host) ops).own.live[i]? = some (.raw s)) :
    ∃ m, let c := Meddler.run B fuel (Meddler.initial w host) (ops ++
        [.renumber i (BitVec.ofNat 8 h.index), .alien (.releaseSocket (Meddler.run B fuel (Meddler.initial w host) ops).alien.length)] ++
        List.replicate m (.own .takeSocket))
      2 ≤ (c.own.live.map Handle.index).count h.index := by
  have hi : AllocInv (Meddler.run B fuel (Meddler.initial w host) ops).own :=
    AllocInv.meddles (c := Meddler.initial w host) (allocInv_initial w host) fuel ho
  generalize hc : Meddler.run B fuel (Meddler.initial w host) ops = c at hi hj hs
  have hn : h.index < 8 := hi.bound _ (List.mem_append_left _ (List.mem_map_of_mem (List.mem_of_getElem? hj)))
  have hk : (BitVec.ofNat 8 h.index).toNat = h.index := by simp; omega
  -- the state after the release
  let c' : Meddler W H :=
    { own := { dev := { c.own.dev with state := { c.own.dev.state with sockets := setBit c.own.dev.state.sockets h.index true } }
               live := c.own.live.eraseIdx i, lost := c.own.lost ++ [s.index.toNat] }
      alien := (c.alien ++ [Handle.raw (Meddler.renumbered s (BitVec.ofNat 8 h.index))]).eraseIdx c.alien.length }
  have hrun : Meddler.run B fuel c
      [.renumber i (BitVec.ofNat 8 h.index), .alien (.releaseSocket c.alien.length)] = c' := by
    simp only [Meddler.run, List.foldl, Meddler.step, hs, Op.target, Option.isSome, if_true, Client.step]
    rw [List.getElem?_append_right (Nat.le_refl _), Nat.sub_self]
    simp only [List.getElem?_cons_zero, Client.consume, Device.releaseSocket, DeviceState.releaseSocket, Meddler.renumbered, hk, hn, if_true]
    rfl
  have hm : h ∈ c'.own.live := by
    show h ∈ c.own.live.eraseIdx i
    exact List.mem_eraseIdx_iff_getElem?.mpr ⟨j, fun e => hij e.symm, hj⟩
  have hbit : c'.own.dev.state.sockets.getLsbD h.index = true := by
    show (setBit _ _ true).getLsbD _ = true
    rw [getLsbD_setBit _ _ _ _ hn hn, if_pos rfl]
  obtain ⟨m, l, hl⟩ := takes_reach (B := B) fuel hn h.index 0 c'.own (by omega) (by omega) (fun j hj => absurd hj (by omega)) hbit
  refine ⟨m, ?_⟩
  have hre : List.replicate m (MOp.own (H := H) (.takeSocket : Op W)) = (List.replicate m .takeSocket).map .own := by simp
  simp only [Meddler.run_append, hc, hrun, hre, Meddler.run_own, hl, List.map_append, List.count_append, List.map_cons, List.map_nil]
  have h1 : 1 ≤ (c'.own.live.map Handle.index).count h.index := List.count_pos_iff.mpr (List.mem_map_of_mem hm)
  have h2 : [(Handle.raw (Socket.new (BitVec.ofNat 8 h.index))).index].count h.index = 1 := by
    rw [show (Handle.raw (Socket.new (BitVec.ofNat 8 h.index))).index = h.index from socket_new_index _ hn]; simp
  omega

/-- C91 is false, keeping handles: whatever the client did before, if it takes the device apart with `release` and initialises the bus
again while it holds a handle, then after some calls of `take_socket` it holds a second handle with the same index. -/
theorem C91_renew_refuted (B : Bus W E) (fuel : Nat) (w w' : W) (host host' : H) (ops : List (MOp W H))
    (ho : ∀ o ∈ ops, o.closesAlien = false) {h : Handle}
    (hh : h ∈ (Meddler.run B fuel (Meddler.initial w host) ops).own.live) :
    ∃ m, let c := Meddler.run B fuel (Meddler.initial w host) (ops ++ [.renew w' host'] ++ List.replicate m (.own .takeSocket))
      2 ≤ (c.handles.map Handle.index).count h.index := by
  have hi : AllocInv (Meddler.run B fuel (Meddler.initial w host) ops).own :=
    AllocInv.meddles (c := Meddler.initial w host) (allocInv_initial w host) fuel ho
  have hn : h.index < 8 := hi.bound _ (List.mem_append_left _ (List.mem_map_of_mem hh))
  generalize hc : Meddler.run B fuel (Meddler.initial w host) ops = c at hi hh
  have hi' := allocInv_initial w' host'
  obtain ⟨m, h2⟩ := handed_twice B fuel { own := .initial w' host', alien := c.alien ++ c.own.live } (h := h)
    (List.mem_append_right _ (List.mem_append_right _ hh)) hn (by
      cases hb : (Client.initial w' host').dev.state.sockets.getLsbD h.index
      · have := (hi'.taken _ hn).mp hb; simp [Client.held, Client.initial] at this
      · rfl)
  refine ⟨m, ?_⟩
  simp only [Meddler.run_append, hc]
  exact h2

/-- C91, closing a kept handle: if the `close` of an alien UDP or TCP socket with the index of an untouched handle `h` succeeds, the slot
of `h` is handed out a second time after some calls of `take_socket`. -/
theorem C91_close_refuted (B : Bus W E) (fuel : Nat) (c : Meddler W H) {h a : Handle} {i : Nat} (hh : h ∈ c.own.live) (hn : h.index < 8)
    (ha : c.alien[i]? = some a) (hidx : a.index = h.index) :
    (∀ u d, a = .udp u → Device.udpClose B u c.own.dev = (.ok (), d) →
      ∃ m, 2 ≤ (((c.run B fuel (.alien (.udpClose i) :: List.replicate m (.own .takeSocket))).own.live).map Handle.index).count h.index) ∧
    (∀ t d, a = .tcp t → Device.tcpClose B t c.own.dev = (.ok (), d) →
      ∃ m, 2 ≤ (((c.run B fuel (.alien (.tcpClose i) :: List.replicate m (.own .takeSocket))).own.live).map Handle.index).count h.index) := by
  have key : ∀ (d : Device W H) (al : List Handle), d.state.sockets.getLsbD h.index = true →
      ∃ m, 2 ≤ (((Meddler.run B fuel { own := { c.own with dev := d }, alien := al }
        (List.replicate m (.own .takeSocket))).own.live).map Handle.index).count h.index := by
    intro d al hbit
    obtain ⟨m, l, hl⟩ := takes_reach (B := B) fuel hn h.index 0 { c.own with dev := d } (by omega) (by omega)
      (fun j hj => absurd hj (by omega)) hbit
    refine ⟨m, ?_⟩
    have hre : List.replicate m (MOp.own (H := H) (.takeSocket : Op W)) = (List.replicate m .takeSocket).map .own := by simp
    rw [hre, Meddler.run_own]
    simp only [hl, List.map_append, List.count_append, List.map_cons, List.map_nil]
    have h1 : 1 ≤ (c.own.live.map Handle.index).count h.index := List.count_pos_iff.mpr (List.mem_map_of_mem hh)
    have h2 : [(Handle.raw (Socket.new (BitVec.ofNat 8 h.index))).index].count h.index = 1 := by
      rw [show (Handle.raw (Socket.new (BitVec.ofNat 8 h.index))).index = h.index from socket_new_index _ hn]; simp
    omega
  constructor
  · rintro u d rfl hr
    have h8 : u.socket.index.toNat < 8 := by rw [show u.socket.index.toNat = _ from hidx]; exact hn
    have hst : d.state.sockets.getLsbD h.index = true := by
      rcases close_alloc (H := H) (u.socketClose B) u.socket c.own.dev h8 with ⟨-, -, hs⟩ | ⟨hne, h1, -⟩
      · change (Device.udpClose B u c.own.dev).2.state.sockets = _ at hs
        rw [hr] at hs
        rw [hs, ← hidx]; exact (getLsbD_setBit _ _ _ _ h8 h8).trans (if_pos rfl)
      · change (Device.udpClose B u c.own.dev).1 = _ at h1
        rw [hr] at h1; exact absurd h1.symm hne
    obtain ⟨m, hm⟩ := key d (c.alien.eraseIdx i) hst
    refine ⟨m, ?_⟩
    have : c.step B fuel (.alien (.udpClose i)) = { own := { c.own with dev := d }, alien := c.alien.eraseIdx i } := by
      simp only [Meddler.step, Op.target, Option.isSome, if_true, Client.step, ha, Client.consume, hr]
    show 2 ≤ (((Meddler.run B fuel (c.step B fuel (.alien (.udpClose i))) _).own.live).map Handle.index).count h.index
    rw [this]; exact hm
  · rintro u d rfl hr
    have h8 : u.socket.index.toNat < 8 := by rw [show u.socket.index.toNat = _ from hidx]; exact hn
    have hst : d.state.sockets.getLsbD h.index = true := by
      rcases close_alloc (H := H) (u.socketClose B) u.socket c.own.dev h8 with ⟨-, -, hs⟩ | ⟨hne, h1, -⟩
      · change (Device.tcpClose B u c.own.dev).2.state.sockets = _ at hs
        rw [hr] at hs
        rw [hs, ← hidx]; exact (getLsbD_setBit _ _ _ _ h8 h8).trans (if_pos rfl)
      · change (Device.tcpClose B u c.own.dev).1 = _ at h1
        rw [hr] at h1; exact absurd h1.symm hne
    obtain ⟨m, hm⟩ := key d (c.alien.eraseIdx i) hst
    refine ⟨m, ?_⟩
    have : c.step B fuel (.alien (.tcpClose i)) = { own := { c.own with dev := d }, alien := c.alien.eraseIdx i } := by
      simp only [Meddler.step, Op.target, Option.isSome, if_true, Client.step, ha, Client.consume, hr]
    show 2 ≤ (((Meddler.run B fuel (c.step B fuel (.alien (.tcpClose i))) _).own.live).map Handle.index).count h.index
    rw [this]; exact hm

/-- C91, out of range: `release_socket` of a socket whose index was set to 8 or more panics, and of no other. -/
theorem C91_panic (s : Socket) (k : U8) (d : Device W H) :
    Device.releaseSocket (E := E) (Meddler.renumbered s k) d = (.panic, d) ↔ 8 ≤ k.toNat := by
  unfold Device.releaseSocket DeviceState.releaseSocket Meddler.renumbered
  by_cases h : k.toNat < 8
  · simp only [h, if_true]; simp; omega
  · simp only [h, if_false]; simp; omega

/-- A history to which `C91_partial` applies: one raw socket renumbered and kept, another received from elsewhere and used. -/
example :
    let ops : List (MOp Unit Unit) := [.own .takeSocket, .own .udpSocket, .renumber 0 1, .foreign (.udp (UdpSocket.new (Socket.new 1))),
      .alien (.udpBind 1 80), .own .tcpSocket]
    (∀ o ∈ ops, o.closesAlien = false) ∧
    (Meddler.run okBus 5 (Meddler.initial () ()) ops).handles.map Handle.index = [1, 2, 1, 1] := by decide

/-- The renumbered socket is released: slot 1 is handed out although the UDP socket 1 is open. (The renumbered socket's own slot, 0, is
lost.) -/
example :
    (Meddler.run okBus 5 (Meddler.initial () ()) [.own .takeSocket, .own .udpSocket, .renumber 0 1, .alien (.releaseSocket 0),
      .own .tcpSocket]).own.live.map Handle.index = [1, 1] := by decide

/-- A new initialisation while socket 0 is open, then a TCP socket 0; closing the old handle frees the slot of the new one, which is
handed out once more. -/
example :
    (Meddler.run okBus 5 (Meddler.initial () ()) [.own .udpSocket, .renew () (), .own .tcpSocket]).handles.map Handle.index = [0, 0] ∧
    (Meddler.run okBus 5 (Meddler.initial () ()) [.own .udpSocket, .renew () (), .own .tcpSocket, .alien (.udpClose 0),
      .own .tcpSocket]).own.live.map Handle.index = [0, 0] := by decide

end W5500.Props
