import Verif.Spec.Script
import Verif.Proofs.Hoare
import Verif.Proofs.Trace
import Verif.Proofs.Bytes
import Verif.Proofs.Runs
/-! # Reasoning about exact traffic -/

namespace W5500
open Spec
variable {W E ε α β : Type} {B : Bus W E} {L : List (Ev E)} {R : List (Ev E) → Prop}

theorem hl_write (b : U8) (a : U16) (d : List U8) (hr : ∀ r, r ≠ .ok () → R (L ++ [.wr b a d r])) :
    Hoare (fun t => t.log = L) ((traced B).write b a d) (fun _ t => t.log = L ++ [.wr b a d (.ok ())])
      (fun t => R t.log) := by
  constructor
  rintro ⟨w, l⟩ rfl
  show Res.post _ _ ((traced B).writeFrame _ b a d)
  simp only [traced]
  generalize B.writeFrame w b a d = r at *
  obtain ⟨_ | _ | _ | _, w'⟩ := r
  · rfl
  all_goals exact hr _ nofun

theorem hl_readBuf (b : U8) (a : U16) (i : List U8) (hr : ∀ d r, r ≠ .ok () → R (L ++ [.rd b a d r])) :
    Hoare (fun t => t.log = L) ((traced B).readBuf b a i)
      (fun d t => d.length = i.length ∧ t.log = L ++ [.rd b a d (.ok ())]) (fun t => R t.log) := by
  constructor
  rintro ⟨w, l⟩ rfl
  unfold Bus.readBuf
  have := B.read_length w b a i
  simp only [traced]
  generalize B.readFrame w b a i = r at *
  obtain ⟨_ | _ | _ | _, d, w'⟩ := r
  · exact ⟨this, rfl⟩
  all_goals exact hr _ _ nofun

theorem hl_read1 (b : U8) (a : U16) (hr : ∀ d r, r ≠ .ok () → R (L ++ [.rd b a d r])) :
    Hoare (fun t => t.log = L) ((traced B).read1 b a) (fun x t => t.log = L ++ [.rd b a [x] (.ok ())])
      (fun t => R t.log) := by
  unfold Bus.read1
  refine .bind (hl_readBuf b a [0] hr) fun d => ?_
  refine .of_state fun s hs => ?_
  match d, hs with
  | [x], hs => exact .pure fun t h => by rw [h]; exact hs.2

theorem hl_read2 (b : U8) (a : U16) (hr : ∀ d r, r ≠ .ok () → R (L ++ [.rd b a d r])) :
    Hoare (fun t => t.log = L) ((traced B).read2 b a) (fun x t => t.log = L ++ [.rd b a (be x.toNat) (.ok ())])
      (fun t => R t.log) := by
  unfold Bus.read2
  refine .bind (hl_readBuf b a [0, 0] hr) fun d => ?_
  refine .of_state fun s hs => ?_
  match d, hs with
  | [x, y], hs =>
    exact .pure fun t h => by rw [h, ← toBeBytes_eq_be, toBeBytes_fromBeBytes]; exact hs.2

theorem hl_emits {Λ : Lang E} {m : M (TW W E) ε α} (h : Emits Λ m) :
    Hoare (fun t => t.log = L) m (fun _ t => ∃ evs, t.log = L ++ evs ∧ Λ.mem evs)
      (fun t => ∃ evs, t.log = L ++ evs ∧ Λ.mem evs) := by
  constructor
  rintro t rfl
  have := h.run t
  generalize m t = r at this
  obtain ⟨_ | _ | _ | _, t'⟩ := r <;> exact this

theorem hl_writeAll (l : List Wr)
    (hr : ∀ l1 x l2 r, l = l1 ++ x :: l2 → r ≠ .ok () → R (L ++ l1.map Wr.done ++ [.wr x.1 x.2.1 x.2.2 r])) :
    Hoare (fun t => t.log = L) (writeAll (traced B) l) (fun _ t => t.log = L ++ l.map Wr.done) (fun t => R t.log) := by
  induction l generalizing L with
  | nil => exact .pure fun t h => by rw [h]; simp
  | cons x l ih =>
    obtain ⟨b, a, d⟩ := x
    refine .bind (hl_write b a d fun r h => ?_) fun _ => ?_
    · have := hr [] (b, a, d) l r rfl h
      simpa using this
    · refine (ih fun l1 x l2 r h h' => ?_).post fun _ t h => by rw [h]; simp [Wr.done]
      have := hr ((b, a, d) :: l1) x l2 r (by rw [h]; rfl) h'
      simpa [Wr.done] using this

/-- A script in two parts. -/
theorem writeAll_append (B : Bus W E) (l l' : List Wr) :
    writeAll B (l ++ l') = (do writeAll B l; writeAll B l') := by
  induction l with
  | nil => rfl
  | cons x l ih =>
    obtain ⟨b, a, d⟩ := x
    show (B.write b a d >>= fun _ => writeAll B (l ++ l')) = (B.write b a d >>= fun _ => writeAll B l) >>= _
    rw [ih, bind_assoc]

theorem writeAll_one (B : Bus W E) (b : U8) (a : U16) (d : List U8) : writeAll B [(b, a, d)] = B.write b a d := by
  show (B.write b a d >>= fun _ => pure ()) = _
  rw [show (fun _ : Unit => (pure () : M W E Unit)) = fun u => pure u from rfl, bind_pure]

/-! ## Parts of the crate that are scripts -/

theorem bind_unit (m : M W E Unit) : (m >>= fun _ => pure ()) = m := by
  rw [show (fun _ : Unit => (pure () : M W E Unit)) = fun u => pure u from rfl, bind_pure]

theorem udp_open_script (B : Bus W E) (s : UdpSocket) :
    s.open B = writeAll B (openScript s.socket.register s.port.toNat 0x02 0) := by
  unfold openScript
  simp only [← toBeBytes_eq_be, writeAll, bind_unit]
  rfl

theorem tcp_open_script (B : Bus W E) (s : TcpSocket) (port : U16) :
    s.open B port = M.mapErr .other (writeAll B (openScript s.socket.register port.toNat 0x01 0)) := by
  unfold openScript
  simp only [← toBeBytes_eq_be, writeAll, bind_unit]
  rfl

theorem tcp_reopen_script (B : Bus W E) (s : TcpSocket) :
    (do s.socketClose B; s.reopen B) = M.mapErr .other (writeAll B (reopenScript s.socket.register 0)) := by
  unfold TcpSocket.socketClose TcpSocket.reopen reopenScript
  rw [← M.mapErr_bind]
  simp only [writeAll, bind_unit, bind_assoc]
  rfl

theorem tcp_remote_script (B : Bus W E) (s : TcpSocket) (ip : Ipv4) (port : U16) :
    (do M.mapErr TcpSocketError.other (s.socket.setDestinationIp B ip)
        M.mapErr TcpSocketError.other (s.socket.setDestinationPort B port)) =
      M.mapErr .other (writeAll B (remoteScript s.socket.register ip.octets port.toNat)) := by
  rw [← M.mapErr_bind]
  unfold remoteScript
  simp only [← toBeBytes_eq_be, writeAll, bind_unit]
  rfl

end W5500
