import Verif.Model.Device
import Verif.Proofs.Monad
/-! # `write_settings` and `Manual::refresh` when all writes succeed -/

namespace W5500
variable {W E : Type}

theorem set_step {β : Type} {c : Prop} [Decidable c] {x : M W E Unit} {f : HostConfig × W → HostConfig × W}
    {k : Unit → M (HostConfig × W) E β} {a a' : HostConfig} {v v' : W}
    (h : (if c then x v else (.ok (), v)) = (.ok (), v')) (hf : c → f (a, v') = (a', v')) (hn : ¬c → a = a') :
    (if c then (do M.onSnd x; let r ← M.modify f; k r) else k ()) (a, v) = k () (a', v') := by
  by_cases hc : c
  · rw [if_pos hc] at h ⊢
    rw [M.bind_ok (a := ()) (s' := (a, v')) (by rw [M.onSnd_apply, h]), M.bind_ok (a := ()) (s' := (a', v')) (by rw [← hf hc]; rfl)]
  · rw [if_neg hc] at h ⊢
    rw [(Prod.mk.inj h).2, hn hc]

theorem set_last {c : Prop} [Decidable c] {x : M W E Unit} {f : HostConfig × W → HostConfig × W}
    {a a' : HostConfig} {v v' : W}
    (h : (if c then x v else (.ok (), v)) = (.ok (), v')) (hf : c → f (a, v') = (a', v')) (hn : ¬c → a = a') :
    (if c then (do M.onSnd x; M.modify f) else pure ()) (a, v) = (.ok (), (a', v')) := by
  by_cases hc : c
  · rw [if_pos hc] at h ⊢
    rw [M.bind_ok (a := ()) (s' := (a, v')) (by rw [M.onSnd_apply, h]), ← hf hc]; rfl
  · rw [if_neg hc] at h ⊢
    rw [(Prod.mk.inj h).2, hn hc]; rfl

theorem writeSettings_run (B : Bus W E) (mac : Mac) (ip g m : Ipv4) {w w1 w2 w3 w4 : W} (cur : HostConfig)
    (h1 : (if g ≠ cur.gateway then B.writeFrame w 0 0x01 g.octets else (.ok (), w)) = (.ok (), w1))
    (h2 : (if m ≠ cur.subnet then B.writeFrame w1 0 0x05 m.octets else (.ok (), w1)) = (.ok (), w2))
    (h3 : (if mac ≠ cur.mac then B.writeFrame w2 0 0x09 mac.octets else (.ok (), w2)) = (.ok (), w3))
    (h4 : (if ip ≠ cur.ip then B.writeFrame w3 0 0x0F ip.octets else (.ok (), w3)) = (.ok (), w4)) :
    writeSettings B ⟨mac, ip, g, m⟩ (cur, w) = (.ok (), (⟨mac, ip, g, m⟩, w4)) := by
  let k3 : Unit → M (HostConfig × W) E Unit := fun _ => do
    if ip ≠ (← M.get).1.ip then
      M.onSnd (B.write COMMON common.IP ip.octets)
      M.modify fun s => ({ s.1 with ip := ip }, s.2)
  let k2 : Unit → M (HostConfig × W) E Unit := fun _ => do
    if mac ≠ (← M.get).1.mac then
      M.onSnd (B.write COMMON common.MAC mac.octets)
      let r ← M.modify fun s => ({ s.1 with mac := mac }, s.2)
      k3 r
    else k3 ()
  let k1 : Unit → M (HostConfig × W) E Unit := fun _ => do
    if m ≠ (← M.get).1.subnet then
      M.onSnd (B.write COMMON common.SUBNET_MASK m.octets)
      let r ← M.modify fun s => ({ s.1 with subnet := m }, s.2)
      k2 r
    else k2 ()
  have e1 : writeSettings B ⟨mac, ip, g, m⟩ (cur, w) = k1 () ({ cur with gateway := g }, w1) :=
    set_step (c := g ≠ cur.gateway) (f := fun s => ({ s.1 with gateway := g }, s.2)) (k := k1) h1 (fun _ => rfl)
      (fun h => by rw [Decidable.not_not.mp h])
  have e2 : k1 () ({ cur with gateway := g }, w1) = k2 () ({ cur with gateway := g, subnet := m }, w2) :=
    set_step (c := m ≠ cur.subnet) (f := fun s => ({ s.1 with subnet := m }, s.2)) (k := k2) h2 (fun _ => rfl)
      (fun h => by rw [Decidable.not_not.mp h])
  have e3 : k2 () ({ cur with gateway := g, subnet := m }, w2) = k3 () ({ cur with gateway := g, subnet := m, mac := mac }, w3) :=
    set_step (c := mac ≠ cur.mac) (f := fun s => ({ s.1 with mac := mac }, s.2)) (k := k3) h3 (fun _ => rfl)
      (fun h => by rw [Decidable.not_not.mp h])
  rw [e1, e2, e3]
  exact set_last (c := ip ≠ cur.ip) (f := fun s => ({ s.1 with ip := ip }, s.2)) h4 (fun _ => rfl)
    (fun h => by rw [Decidable.not_not.mp h])

theorem refresh_run (B : Bus W E) (mac : Mac) (ip g m : Ipv4) {w w1 w2 w3 w4 : W}
    (h1 : (if g ≠ Ipv4.unspecified then B.writeFrame w 0 0x01 g.octets else (.ok (), w)) = (.ok (), w1))
    (h2 : (if m ≠ Ipv4.unspecified then B.writeFrame w1 0 0x05 m.octets else (.ok (), w1)) = (.ok (), w2))
    (h3 : (if mac ≠ Mac.unspecified then B.writeFrame w2 0 0x09 mac.octets else (.ok (), w2)) = (.ok (), w3))
    (h4 : (if ip ≠ Ipv4.unspecified then B.writeFrame w3 0 0x0F ip.octets else (.ok (), w3)) = (.ok (), w4)) :
    M.withLocal (Manual.new mac ip g m) (Host.refresh B) w = (.ok ((), ⟨true, ⟨mac, ip, g, m⟩, ⟨mac, ip, g, m⟩⟩), w4) := by
  have h := writeSettings_run B mac ip g m HostConfig.default h1 h2 h3 h4
  have h' : (Host.refresh B : M (Manual × W) E Unit) (Manual.new mac ip g m, w) = (.ok (), (⟨true, ⟨mac, ip, g, m⟩, ⟨mac, ip, g, m⟩⟩, w4)) := by
    refine (M.bind_ok (m := M.zoom (fun s : Manual × W => (s.1.current, s.2))
      (fun t s => ({ s.1 with current := t.1 }, t.2)) (writeSettings B ⟨mac, ip, g, m⟩))
      (s := (Manual.new mac ip g m, w)) (a := ()) (s' := (⟨false, ⟨mac, ip, g, m⟩, ⟨mac, ip, g, m⟩⟩, w4)) ?_).trans rfl
    unfold M.zoom
    show ((writeSettings B ⟨mac, ip, g, m⟩ (HostConfig.default, w)).1, _) = _
    dsimp only [Manual.new]
    rw [h]
  unfold M.withLocal
  rw [h']

end W5500
