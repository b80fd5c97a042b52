import Verif.Proofs.Failures
import Verif.Props.Tcp
/-! # C88 Only what was handed over reaches the peer, whatever transfers fail -/

namespace W5500.Props
open W5500 W5500.Spec W5500.Spec.Sock
variable {E H : Type} {sched : Nat → List (Nat × Act)} {faults : Nat → Option (E × Nat)}

/-- The invariant of histories with failures. -/
theorem tcpCalls_kept (hw : Whole faults) {n : Nat} (hn : n < 8) {c c' : Chip} {S : List U8} {log : SendLog E}
    (h : TcpCalls sched faults n c log c') (h0 : At n (Kept S true) c) :
    ∃ bs, Handed log bs ∧ At n (Kept (S ++ bs) (lastOk log)) c' := by
  induction h with
  | start => exact ⟨[], .none, by simpa [lastOk] using h0⟩
  | @send H log d d' fuel data r _ hs ih =>
    obtain ⟨bs, hb, hk⟩ := ih
    by_cases hnc : r = .err .notConnected
    · -- refused: only the status was read
      subst hnc
      obtain ⟨x, w, h1, h2⟩ := (C44_send (Chip.dev sched faults).bus fuel _ data d).1.mp (by rw [hs])
      have h3 := (C44_send (Chip.dev sched faults).bus fuel _ data d).2 x w h1 h2
      rw [hs] at h3
      have hd : d'.bus = w := congrArg (fun y => Device.bus y.2) h3
      refine ⟨bs, .lost data _ hb nofun, ?_⟩
      have he := Chip.readFrame_evolves (sched := sched) (faults := faults) d.bus
        (Socket.new (BitVec.ofNat 8 n)).register 0x03 [0]
      rw [h1] at he
      have := ((stable_kept _ _).at n) _ _ he hk
      rw [hd]
      refine ⟨this.1, fun hb => ?_⟩
      obtain ⟨k, hk⟩ := (lastOk_snoc _ _ _).mp hb
      exact nomatch hk
    · have h1 : TcpSocket.socketSend (Chip.dev sched faults).bus fuel ⟨sockOf n⟩ data d.bus = (r, d'.bus) := by
        unfold Device.tcpSend Device.onBus M.zoom at hs
        simp only [Prod.mk.injEq] at hs
        rw [← hs.2]
        exact Prod.ext hs.1 rfl
      have h2 := (tcp_sendHeld (sched := sched) hw hn (S ++ bs) ((d.bus.socks n).txWr) fuel data).run d.bus ⟨hk.1, rfl⟩
      rw [h1] at h2
      have hfail : (∀ k, r ≠ .ok k) → At n (fun s => Held (S ++ bs) s.txWr s ∨ ∃ k, Held (S ++ bs ++ data.take k) s.txWr s) d'.bus →
          ∃ bs', Handed (log ++ [(data, r)]) bs' ∧ At n (Kept (S ++ bs') (lastOk (log ++ [(data, r)]))) d'.bus := by
        intro hr h3
        have hl : lastOk (log ++ [(data, r)]) = true → (d'.bus.socks n).txLimit = (d'.bus.socks n).txWr := fun hb => by
          obtain ⟨k, hk⟩ := (lastOk_snoc _ _ _).mp hb
          exact absurd hk (hr k)
        rcases h3 with h3 | ⟨k, h3⟩
        · exact ⟨bs, .lost data r hb hr, h3, hl⟩
        · exact ⟨bs ++ data.take k, .kept data r k hb hr hnc, by rw [← List.append_assoc]; exact ⟨h3, hl⟩⟩
      cases r with
      | ok k => exact ⟨bs ++ data.take k, .ok data k hb, by rw [← List.append_assoc]; exact ⟨h2.1, fun _ => h2.2⟩⟩
      | err e => exact hfail nofun h2
      | panic => exact hfail nofun h2
      | fuel => exact hfail nofun h2
  | @receive H log d fuel buf _ ih =>
    obtain ⟨bs, hb, hk⟩ := ih
    exact ⟨bs, hb, tcpReceive_kept hn _ _ fuel buf d hk⟩
  | @read log c1 block addr data _ ih =>
    obtain ⟨bs, hb, hk⟩ := ih
    exact ⟨bs, hb, ((stable_kept _ _).at n) _ _ (Chip.readFrame_evolves _ _ _ _) hk⟩
  | @write log c1 block addr data _ hf ih =>
    obtain ⟨bs, hb, hk⟩ := ih
    exact ⟨bs, hb, foreign_keep (stable_kept _ _) hf _ hk⟩
  | @pass log c1 c2 _ hp ih =>
    obtain ⟨bs, hb, hk⟩ := ih
    exact ⟨bs, hb, ((stable_kept _ _).at n) _ _ hp.evolves hk⟩

/-- C88, partial: after `connect`, whatever transfers fail in whatever calls, the bytes transmitted and committed on the connection
are an initial part of an account of the `send` calls: in order, every call that returned `Ok(k)` with its `k` bytes, every other one
with nothing or an initial part of its buffer; all of the account, if the last call returned `Ok`. Missing: transfers of two-byte
registers that fail half-way; see `C88_refuted`. -/
theorem C88_partial (hw : Whole faults) (n : Nat) (hn : n < 8) (fuel : Nat) (remote : SockAddr) (d d1 : Device Chip H)
    (hz : SizesOk (d.bus.socks n).mem)
    (hconn : Device.tcpConnect (Chip.dev sched faults).bus fuel ⟨Socket.new (BitVec.ofNat 8 n)⟩ remote d = (.ok (), d1))
    (log : SendLog E) (c : Chip) (hrun : TcpCalls sched faults n d1.bus log c) :
    ∃ bs, Handed log bs ∧ (c.socks n).stream ++ (c.socks n).pending <+: (d1.bus.socks n).stream ++ bs ∧
      (lastOk log = true → (c.socks n).stream ++ (c.socks n).pending = (d1.bus.socks n).stream ++ bs) := by
  obtain ⟨_, _, ⟨S, A, hf⟩, _⟩ := tcpConnect_idle hn hz hconn
  have h0 : At n (Kept S true) d1.bus := ⟨held_of_idle hf.1, fun _ => hf.1.idle.symm⟩
  obtain ⟨bs, hb, hk⟩ := tcpCalls_kept hw hn hrun h0
  refine ⟨bs, hb, ?_⟩
  rw [hf.stream.1]
  exact ⟨(held_out hk.1).1, fun hl => (held_out hk.1).2 (hk.2 hl)⟩

/-- Transaction `i` fails after its first data byte. -/
def tornAt (i : Nat) : Nat → Option (Unit × Nat) := fun k => if k = i then some ((), 4) else none

/-- 255 bytes are sent, then one byte, but the transfer of the new Sn_TX_WR (0x0100) breaks off after its first byte: the register now
holds 0x01FF. -/
def tornFirst : Res (TcpSocketError Unit) Nat × Device Chip Unit :=
  Device.tcpSend (Chip.dev demoSched (tornAt 24)).bus 9 demoSocket (List.replicate 255 7) demoConnected
def tornSecond : Res (TcpSocketError Unit) Nat × Device Chip Unit :=
  Device.tcpSend (Chip.dev demoSched (tornAt 24)).bus 9 demoSocket [8] tornFirst.2
def tornThird : Res (TcpSocketError Unit) Nat × Device Chip Unit :=
  Device.tcpSend (Chip.dev demoSched (tornAt 24)).bus 9 demoSocket [9] tornSecond.2

/-- C88 is false of the code: a bus error in the middle of a pointer, and the next `send`, which returns `Ok`, commits 255 bytes of old
memory contents between the program's bytes. -/
theorem C88_refuted :
    tornFirst.1 = .ok 255 ∧ tornSecond.1 = .err (.other ()) ∧ tornThird.1 = .ok 1 ∧
    (tornThird.2.bus.socks 0).stream ++ (tornThird.2.bus.socks 0).pending =
      List.replicate 255 7 ++ [8] ++ List.replicate 255 0 ++ [9] := by
  refine ⟨?_, ?_, ?_, ?_⟩ <;> decide +kernel

/-- C88_partial is not vacuous: SEND fails in the first of two calls, the second succeeds; `[1, 2, 3]` was kept. -/
example :
    let B := (Chip.dev demoSched (faultAt 17)).bus
    let r1 := Device.tcpSend B 9 demoSocket [1, 2, 3] demoConnected
    let r2 := Device.tcpSend B 9 demoSocket [4] r1.2
    Whole (faultAt 17) ∧ r1.1 = .err (.other ()) ∧ r2.1 = .ok 1 ∧
      (r2.2.bus.socks 0).stream ++ (r2.2.bus.socks 0).pending = [1, 2, 3, 4] := by
  refine ⟨?_, by decide +kernel, by decide +kernel, by decide +kernel⟩
  intro t e k h
  unfold faultAt at h
  split at h
  · injection h with h; injection h with _ h; omega
  · exact nomatch h

end W5500.Props
