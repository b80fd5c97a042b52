import Verif.Proofs.StrategyClient
import Verif.Spec.Several
/-! # Calls on a device, and what is made of them, are strategies -/

namespace W5500
open Spec
variable {E ε ε' α β S H : Type}

/-- Result and state of the device on one side, bus on the other. -/
def aparts {W : Type} (r : Res ε α × Device W H) : (Res ε α × DeviceState H) × W := ((r.1, r.2.state), r.2.bus)

/-- A function on a device. -/
def PlayDev (m : (W : Type) → Bus W E → M (Device W H) ε α) : Prop := ∀ st, Plays fun W B w => aparts (m W B ⟨w, st⟩)

/-- Result, local state, and state of the device on one side, bus on the other. -/
def apartsWith {W : Type} (r : Res ε α × (S × Device W H)) : (Res ε α × S × DeviceState H) × W := ((r.1, r.2.1, r.2.2.state), r.2.2.bus)

/-- A function on a device and a local state, which is `s` at the beginning. -/
def PlayWith (s : S) (m : (W : Type) → Bus W E → M (S × Device W H) ε α) : Prop := ∀ st, Plays fun W B w => apartsWith (m W B (s, ⟨w, st⟩))

namespace PlayDev

theorem pure {a : α} : PlayDev (H := H) (E := E) (ε := ε) fun _ _ => Pure.pure a := fun st => Plays.done (Res.ok a, st)
theorem panic : PlayDev (H := H) (E := E) (ε := ε) (α := α) fun _ _ => M.panic := fun st => Plays.done (Res.panic, st)

theorem bind {m : (W : Type) → Bus W E → M (Device W H) ε α} {f : α → (W : Type) → Bus W E → M (Device W H) ε β} (hm : PlayDev m)
    (hf : ∀ a, PlayDev (f a)) : PlayDev fun W B => m W B >>= fun a => f a W B := by
  intro st
  refine ((hm st).andThen (G := fun x W B w => match x with
    | (.ok a, t) => aparts (f a W B ⟨w, t⟩)
    | (.err e, t) => ((.err e, t), w)
    | (.panic, t) => ((.panic, t), w)
    | (.fuel, t) => ((.fuel, t), w)) ?_).congr ?_
  · rintro ⟨a | e | _ | _, t⟩
    · exact hf a t
    · exact Plays.done _
    · exact Plays.done _
    · exact Plays.done _
  · intro W B w
    show aparts ((_ >>= _ : M _ _ _) _) = _
    rw [M.bind_def]
    generalize m W B ⟨w, st⟩ = r
    obtain ⟨_ | _ | _ | _, t⟩ := r <;> rfl

theorem mapErr {m : (W : Type) → Bus W E → M (Device W H) ε α} (f : ε → ε') (hm : PlayDev m) : PlayDev fun W B => M.mapErr f (m W B) := by
  intro st
  refine ((hm st).map fun x => match x with
    | (.ok a, t) => ((.ok a, t) : Res ε' α × DeviceState H)
    | (.err e, t) => (.err (f e), t)
    | (.panic, t) => (.panic, t)
    | (.fuel, t) => (.fuel, t)).congr ?_
  intro W B w
  show aparts (M.mapErr _ _ _) = _
  rw [M.mapErr_def]
  generalize m W B ⟨w, st⟩ = r
  obtain ⟨_ | _ | _ | _, t⟩ := r <;> rfl

theorem sliceTo {d : List U8} {n : Nat} : PlayDev (H := H) (E := E) (ε := ε) fun _ _ => M.sliceTo d n := by
  unfold M.sliceTo
  by_cases h : n ≤ d.length
  · simp only [if_pos h]; exact .pure
  · simp only [if_neg h]; exact .panic

theorem onBus {m : (W : Type) → Bus W E → M W ε α} (hm : Play0 m) : PlayDev (H := H) fun W B => Device.onBus (m W B) :=
  fun st => hm.map fun x => (x, st)

end PlayDev

theorem PlayWith.onSockBus {s : S} {m : (W : Type) → Bus W E → M (S × W) ε α} (hm : Play1 s m) : PlayWith (H := H) s fun W B => Device.onSockBus (m W B) :=
  fun st => Plays.map hm fun x => (x.1, x.2, st)

theorem PlayWith.nbBlock {m : (W : Type) → Bus W E → M (S × Device W H) (NbError ε) α} (hm : ∀ s, PlayWith s m) (fuel : Nat) (s : S) :
    PlayWith s fun W B => Spec.nbBlock (m W B) fuel := by
  induction fuel generalizing s with
  | zero => exact fun st => Plays.done (Res.fuel, s, st)
  | succ fuel ih =>
    intro st
    refine ((hm s st).andThen (G := fun x W B w => match x with
      | (.ok a, t, st) => ((.ok a, t, st), w)
      | (.err .wouldBlock, t, st) => apartsWith (Spec.nbBlock (m W B) fuel (t, ⟨w, st⟩))
      | (.err (.other e), t, st) => ((.err e, t, st), w)
      | (.panic, t, st) => ((.panic, t, st), w)
      | (.fuel, t, st) => ((.fuel, t, st), w)) ?_).congr ?_
    · rintro ⟨a | e | _ | _, t, st⟩
      · exact Plays.done _
      · cases e with
        | wouldBlock => exact ih t st
        | other e => exact Plays.done _
      · exact Plays.done _
      · exact Plays.done _
    · intro W B w
      show apartsWith (Spec.nbBlock (m W B) (fuel + 1) (s, ⟨w, st⟩)) = _
      rw [Spec.nbBlock]
      dsimp only
      generalize m W B (s, ⟨w, st⟩) = r
      obtain ⟨_ | e | _ | _, t⟩ := r
      · rfl
      · cases e <;> rfl
      · rfl
      · rfl

theorem PlayDev.withLocal {m : (W : Type) → Bus W E → M (S × Device W H) ε α} {b : S} (hm : PlayWith b m) : PlayDev fun W B => M.withLocal b (m W B) := by
  intro st
  refine ((hm st).map fun x => match x with
    | (.ok a, t, st) => ((.ok (a, t), st) : Res ε (α × S) × DeviceState H)
    | (.err e, _, st) => (.err e, st)
    | (.panic, _, st) => (.panic, st)
    | (.fuel, _, st) => (.fuel, st)).congr ?_
  intro W B w
  show aparts (M.withLocal _ _ _) = _
  unfold M.withLocal
  generalize m W B (b, ⟨w, st⟩) = r
  obtain ⟨_ | _ | _ | _, t⟩ := r <;> rfl

theorem play_poll (fuel : Nat) (u : UdpSocket) (buf : List U8) : PlayDev (H := H) fun W (B : Bus W E) => poll B fuel u buf := by
  intro st
  refine ((PlayWith.onSockBus (H := H) (play_udpReceived (E := E) u fuel buf) st).map fun x => match x with
    | (.ok (k, origin), buf', st) => ((.ok (some ⟨buf, k, origin, buf'⟩), st) : Res (UdpSocketError E) (Option UdpGot) × DeviceState H)
    | (.err .wouldBlock, _, st) => (.ok none, st)
    | (.err (.other e), _, st) => (.err e, st)
    | (.panic, _, st) => (.panic, st)
    | (.fuel, _, st) => (.fuel, st)).congr ?_
  intro W B w
  show aparts (poll _ _ _ _ _) = _
  unfold poll Device.udpReceive
  dsimp only
  generalize Device.onSockBus _ (buf, (⟨w, st⟩ : Device W H)) = r
  obtain ⟨⟨k, o⟩ | e | _ | _, t⟩ := r
  · rfl
  · cases e <;> rfl
  · rfl
  · rfl

theorem playWith_udpSendTo (u : UdpSocket) (fuel : Nat) (remote : SockAddr) (d : List U8) :
    PlayWith (H := H) u fun W (B : Bus W E) => Device.udpSendTo B fuel remote d := by
  cases remote with
  | v6 => exact fun st => Plays.done ((Res.err (.other .unsupportedAddress) : Res (NbError (UdpSocketError E)) Unit), u, st)
  | v4 a => exact .onSockBus (play_udpSendTo u fuel a d)

theorem play_tcpReply (t : TcpSocket) (answer : List U8 → List U8) (buf : List U8) (fuel : Nat) :
    PlayDev (H := H) fun W (B : Bus W E) => tcpReply B t answer buf fuel := by
  refine .bind (.withLocal (.onSockBus (play_tcpReceive t fuel buf))) fun x => ?_
  by_cases h : x.1 = 0
  · simp only [if_pos h]; exact .pure
  · simp only [if_neg h]; exact .bind (.onBus (play_tcpSend t fuel _)) fun _ => .pure

theorem play_tcpReplier (t : TcpSocket) (answer : List U8 → List U8) (buf : List U8) (rounds fuel : Nat) :
    PlayDev (H := H) fun W (B : Bus W E) => tcpReplier B t answer buf rounds fuel := by
  induction rounds with
  | zero => exact .pure
  | succ rounds ih => exact .bind (play_tcpReply t answer buf fuel) fun _ => ih

theorem play_serve (fuel : Nat) (p : Desk) : PlayDev (H := H) fun W (B : Bus W E) => p.serve B fuel := by
  cases p with
  | udp n u buf answer =>
    simp only [Desk.serve]
    refine .bind (.mapErr _ (play_poll fuel u buf)) fun x => ?_
    cases x with
    | none => exact .pure
    | some g => exact .bind .sliceTo fun r => .bind (.mapErr _ (.withLocal (.nbBlock (fun u => playWith_udpSendTo u fuel _ _) fuel u))) fun _ => .pure
  | tcp n buf answer =>
    simp only [Desk.serve]
    exact .bind (.mapErr _ (play_tcpReply _ answer buf fuel)) fun _ => .pure

theorem play_serveEach (fuel : Nat) (desks : List Desk) : PlayDev (H := H) fun W (B : Bus W E) => serveEach B fuel desks := by
  induction desks with
  | nil => exact .pure
  | cons p rest ih => exact .bind (play_serve fuel p) fun _ => .bind ih fun _ => .pure

theorem play_serveAlways (desks : List Desk) (rounds fuel : Nat) : PlayDev (H := H) fun W (B : Bus W E) => serveAlways B desks rounds fuel := by
  induction rounds generalizing desks with
  | zero => exact .pure
  | succ rounds ih => exact .bind (play_serveEach fuel desks) fun d => ih d

end W5500
