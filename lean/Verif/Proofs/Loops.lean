import Verif.Proofs.Script
/-! # The loops of the TCP client -/

namespace W5500
open Spec socketn
variable {W E ε α β : Type} {B : Bus W E}

/-- Never still looping. -/
structure NoFuel (m : M W ε α) : Prop where
  run : ∀ w, (m w).1 ≠ .fuel

namespace NoFuel
theorem pure (a : α) : NoFuel (Pure.pure a : M W ε α) := ⟨fun _ => nofun⟩
theorem throw (e : ε) : NoFuel (M.throw e : M W ε α) := ⟨fun _ => nofun⟩
theorem panic : NoFuel (M.panic : M W ε α) := ⟨fun _ => nofun⟩
theorem sliceTo (b : List U8) (n : Nat) : NoFuel (M.sliceTo b n : M W ε _) := by
  unfold M.sliceTo; split
  · exact .pure _
  · exact .panic
theorem bind {m : M W ε α} {f : α → M W ε β} (h : NoFuel m) (hf : ∀ a, NoFuel (f a)) : NoFuel (m >>= f) := by
  constructor
  intro w
  have := h.run w
  rw [M.bind_def]
  generalize m w = r at this
  obtain ⟨_ | _ | _ | _, t⟩ := r
  · exact (hf _).run _
  · nofun
  · nofun
  · exact absurd rfl this
theorem mapErr {ε' : Type} {m : M W ε α} (f : ε → ε') (h : NoFuel m) : NoFuel (M.mapErr f m) := by
  constructor
  intro w
  have := h.run w
  rw [M.mapErr_def]
  generalize m w = r at this
  obtain ⟨_ | _ | _ | _, t⟩ := r
  · nofun
  · nofun
  · nofun
  · exact absurd rfl this
theorem write (hB : Returning B) (b : U8) (a : U16) (d : List U8) : NoFuel (B.write b a d) := ⟨fun w => hB.2 w b a d⟩
theorem readBuf (hB : Returning B) (b : U8) (a : U16) (d : List U8) : NoFuel (B.readBuf b a d) := by
  constructor
  intro w
  have := hB.1 w b a d
  unfold Bus.readBuf
  generalize B.readFrame w b a d = r at this
  obtain ⟨_ | _ | _ | _, _, _⟩ := r
  · nofun
  · nofun
  · nofun
  · exact absurd rfl this
theorem read1 (hB : Returning B) (b : U8) (a : U16) : NoFuel (B.read1 b a) := by
  refine .bind (.readBuf hB _ _ _) fun d => ?_
  split
  · exact .pure _
  · exact .panic
theorem read2 (hB : Returning B) (b : U8) (a : U16) : NoFuel (B.read2 b a) := by
  refine .bind (.readBuf hB _ _ _) fun d => ?_
  split
  · exact .pure _
  · exact .panic
theorem writeAll (hB : Returning B) (l : List Wr) : NoFuel (writeAll B l) := by
  induction l with
  | nil => exact .pure _
  | cons x l ih => exact .bind (.write hB _ _ _) fun _ => ih
end NoFuel

/-- A sequence is still looping: then its first part is, or the second one after it. -/
theorem bind_eq_fuel {m : M W ε α} {f : α → M W ε β} {w : W} (h : ((m >>= f) w).1 = .fuel) :
    (m w).1 = .fuel ∨ ∃ a w1, m w = (.ok a, w1) ∧ (f a w1).1 = .fuel ∧ (m >>= f) w = f a w1 := by
  rw [M.bind_def] at h
  rcases hm : m w with ⟨_ | _ | _ | _, t⟩ <;> rw [hm] at h
  · exact .inr ⟨_, _, rfl, h, M.bind_ok hm⟩
  · exact nomatch h
  · exact nomatch h
  · exact .inl rfl

/-! ## `connect` -/

theorem tryFrom_established (x : U8) : Status.tryFrom x = some .established ↔ x = 0x17 := by
  revert x; decide +kernel
theorem tryFrom_closed (x : U8) : Status.tryFrom x = some .closed ↔ x = 0x00 := by
  revert x; decide +kernel
theorem tryFrom_init (x : U8) : Status.tryFrom x = some .init ↔ x = 0x13 := by
  revert x; decide +kernel

theorem connectLoop_step (s : TcpSocket) (fuel : Nat) {w w1 : W} {y : U8}
    (h : B.readFrame w s.socket.register 0x03 [0] = (.ok (), [y], w1)) :
    s.connectLoop B (fuel + 1) w =
      if y = 0x17 then (.ok (), w1)
      else if y = 0x00 then M.mapErr TcpSocketError.other (writeAll B (reopenScript s.socket.register 0)) w1
      else s.connectLoop B fuel w1 := by
  show (do
    let st ← M.mapErr TcpSocketError.other (s.socket.getStatus B)
    match Status.tryFrom st with
    | some .established => pure ()
    | some .closed => (do s.socketClose B; s.reopen B)
    | _ => TcpSocket.connectLoop B s fuel : M W (TcpSocketError E) Unit) w = _
  refine (M.bind_ok (M.mapErr_ok (read1_ok h))).trans ?_
  by_cases h1 : y = 0x17
  · subst h1; rfl
  by_cases h2 : y = 0x00
  · subst h2
    rw [if_neg (by decide), if_pos rfl, ← tcp_reopen_script]
    rfl
  rw [if_neg h1, if_neg h2]
  have n1 := fun h => h1 ((tryFrom_established y).mp h)
  have n2 := fun h => h2 ((tryFrom_closed y).mp h)
  generalize Status.tryFrom y = o at *
  match o with
  | none => rfl
  | some o => cases o <;> first | rfl | exact absurd rfl n1 | exact absurd rfl n2

/-- As long as the status is neither ESTABLISHED nor CLOSED, the loop goes on. -/
theorem connectLoop_polls (s : TcpSocket) (fuel : Nat) {w w1 : W} {ys : List U8}
    (h : Polls B s.socket.register 0x03 w ys w1) (hy : ∀ y ∈ ys, y ≠ 0x17 ∧ y ≠ 0x00) :
    s.connectLoop B (ys.length + fuel) w = s.connectLoop B fuel w1 := by
  induction h with
  | nil w => rw [List.length_nil, Nat.zero_add]
  | @cons w w1 w2 y ys h1 _ ih =>
    rw [List.length_cons, Nat.add_right_comm, connectLoop_step s _ h1, if_neg (hy y (by simp)).1,
      if_neg (hy y (by simp)).2]
    exact ih fun y h => hy y (by simp [h])

theorem connectLoop_fuel (hB : Returning B) (s : TcpSocket) (fuel : Nat) {w : W} :
    (s.connectLoop B fuel w).1 = .fuel ↔
      ∃ ys, Polls B s.socket.register 0x03 w ys (s.connectLoop B fuel w).2 ∧ ys.length = fuel ∧
        ∀ y ∈ ys, y ≠ 0x17 ∧ y ≠ 0x00 := by
  constructor
  · intro h
    induction fuel generalizing w with
    | zero => exact ⟨[], .nil _, rfl, by simp⟩
    | succ fuel ih =>
      have hr := hB.1 w s.socket.register 0x03 [0]
      rcases readFrame1_cases B w s.socket.register 0x03 with ⟨y, w1, h1⟩ | ⟨e, d, w1, h1⟩ | ⟨d, w1, h1⟩ | ⟨d, w1, h1⟩
      · rw [connectLoop_step s _ h1] at h ⊢
        split at h
        · exact nomatch h
        split at h
        · exact absurd h ((NoFuel.mapErr _ (.writeAll hB _)).run _)
        rename_i n1 n2
        obtain ⟨ys, hp, hl, hy⟩ := ih h
        rw [if_neg n1, if_neg n2]
        refine ⟨y :: ys, .cons h1 hp, by rw [List.length_cons, hl], ?_⟩
        intro z hz
        rcases List.mem_cons.mp hz with rfl | hz
        · exact ⟨n1, n2⟩
        · exact hy z hz
      · rw [show s.connectLoop B (fuel + 1) w = _ from
          M.bind_err (M.mapErr_err (read1_err h1))] at h
        exact nomatch h
      · rw [show s.connectLoop B (fuel + 1) w = (.panic, w1) from M.bind_panic (by
          rw [M.mapErr_def, show s.socket.getStatus B w = _ from read1_panic h1])] at h
        exact nomatch h
      · rw [h1] at hr
        exact absurd rfl hr
  · rintro ⟨ys, hp, rfl, hy⟩
    have := connectLoop_polls s 0 hp hy
    rw [Nat.add_zero] at this
    rw [this]
    rfl

/-- `connect` up to and including the CONNECT command. -/
def connectPrefix (B : Bus W E) (s : TcpSocket) (remote : SockAddr4) : M W (TcpSocketError E) Unit := do
  let st ← M.mapErr .other (s.socket.getStatus B)
  (match Status.tryFrom st with
    | some .init => pure ()
    | none | some .macRaw | some .udp => M.throw .unsupportedMode
    | some _ => M.mapErr TcpSocketError.other (writeAll B (reopenScript s.socket.register 0)))
  M.mapErr TcpSocketError.other (writeAll B (remoteScript s.socket.register remote.ip.octets remote.port.toNat))
  M.mapErr .other (s.socket.command B .connect)

theorem socketConnect_eq (s : TcpSocket) (fuel : Nat) (remote : SockAddr4) :
    s.socketConnect B fuel remote = (do connectPrefix B s remote; s.connectLoop B fuel) := by
  unfold TcpSocket.socketConnect connectPrefix
  rw [← tcp_remote_script, ← tcp_reopen_script]
  simp only [bind_assoc]
  congr 1
  funext st
  generalize Status.tryFrom st = o
  rcases o with _ | o
  · rfl
  cases o <;> first | rfl | simp only [bind_assoc]

theorem connectPrefix_noFuel (hB : Returning B) (s : TcpSocket) (remote : SockAddr4) :
    NoFuel (connectPrefix B s remote) := by
  refine .bind (.mapErr _ (.read1 hB _ _)) fun st => .bind ?_ fun _ =>
    .bind (.mapErr _ (.writeAll hB _)) fun _ => .mapErr _ (.write hB _ _ _)
  split
  · exact .pure _
  · exact .throw _
  · exact .throw _
  · exact .throw _
  · exact .mapErr _ (.writeAll hB _)

/-! ## `send` -/

theorem waitSendOk_step (s : Socket) (fuel : Nat) {w w1 : W} {y : U8}
    (h : B.readFrame w s.register 0x02 [0] = (.ok (), [y], w1)) :
    RawDevice.waitSendOk B s (fuel + 1) w =
      if y &&& 0x10 ≠ 0 then (.ok (), w1) else RawDevice.waitSendOk B s fuel w1 := by
  have h3 : s.hasInterrupt B .sendOk w = (.ok (decide (y &&& 0x10 ≠ 0)), w1) := M.bind_ok (read1_ok h)
  refine (M.bind_ok h3).trans ?_
  by_cases hy : y &&& 0x10 ≠ 0
  · rw [if_pos hy, if_pos (decide_eq_true hy)]; rfl
  · rw [if_neg hy, if_neg (by rw [decide_eq_false hy]; decide)]

theorem waitSendOk_polls (s : Socket) (fuel : Nat) {w w1 : W} {ys : List U8}
    (h : Polls B s.register 0x02 w ys w1) (hy : ∀ y ∈ ys, y &&& 0x10 = 0) :
    RawDevice.waitSendOk B s (ys.length + fuel) w = RawDevice.waitSendOk B s fuel w1 := by
  induction h with
  | nil w => rw [List.length_nil, Nat.zero_add]
  | @cons w w1 w2 y ys h1 _ ih =>
    rw [List.length_cons, Nat.add_right_comm, waitSendOk_step s _ h1, if_neg (fun h => h (hy y (by simp)))]
    exact ih fun y h => hy y (by simp [h])

theorem waitSendOk_fuel (hB : Returning B) (s : Socket) (fuel : Nat) {w : W} :
    (RawDevice.waitSendOk B s fuel w).1 = .fuel ↔
      ∃ ys, Polls B s.register 0x02 w ys (RawDevice.waitSendOk B s fuel w).2 ∧ ys.length = fuel ∧
        ∀ y ∈ ys, y &&& 0x10 = 0 := by
  constructor
  · intro h
    induction fuel generalizing w with
    | zero => exact ⟨[], .nil _, rfl, by simp⟩
    | succ fuel ih =>
      have hr := hB.1 w s.register 0x02 [0]
      rcases readFrame1_cases B w s.register 0x02 with ⟨y, w1, h1⟩ | ⟨e, d, w1, h1⟩ | ⟨d, w1, h1⟩ | ⟨d, w1, h1⟩
      · rw [waitSendOk_step s _ h1] at h ⊢
        split at h
        · exact nomatch h
        rename_i n1
        obtain ⟨ys, hp, hl, hy⟩ := ih h
        rw [if_neg n1]
        refine ⟨y :: ys, .cons h1 hp, by rw [List.length_cons, hl], ?_⟩
        intro z hz
        rcases List.mem_cons.mp hz with rfl | hz
        · simpa using n1
        · exact hy z hz
      · rw [show RawDevice.waitSendOk B s (fuel + 1) w = _ from M.bind_err (M.bind_err (read1_err h1))] at h
        exact nomatch h
      · rw [show RawDevice.waitSendOk B s (fuel + 1) w = _ from M.bind_panic (M.bind_panic (read1_panic h1))] at h
        exact nomatch h
      · rw [h1] at hr
        exact absurd rfl hr
  · rintro ⟨ys, hp, rfl, hy⟩
    have := waitSendOk_polls s 0 hp hy
    rw [Nat.add_zero] at this
    rw [this]
    rfl

/-- `send` up to and including the SEND command. -/
def sendPrefix (B : Bus W E) (s : TcpSocket) (data : List U8) : M W (TcpSocketError E) Nat := do
  if !(← s.socketIsConnected B) then
    M.throw .notConnected
  else
    let maxSize := (← M.mapErr .other (s.socket.getTxFreeSize B)).toNat
    let writeData ← (if data.length < maxSize then pure data else M.sliceTo data maxSize)
    let writePointer ← M.mapErr .other (s.socket.getTxWritePointer B)
    M.mapErr .other (B.write s.socket.txBuffer writePointer writeData)
    M.mapErr .other (s.socket.setTxWritePointer B (writePointer + BitVec.ofNat 16 writeData.length))
    M.mapErr .other (s.socket.command B .send)
    pure writeData.length

theorem socketSend_eq (s : TcpSocket) (fuel : Nat) (data : List U8) :
    s.socketSend B fuel data = (do
      let k ← sendPrefix B s data
      M.mapErr TcpSocketError.other (RawDevice.waitSendOk B s.socket fuel)
      M.mapErr TcpSocketError.other (s.socket.resetInterrupt B .sendOk)
      pure k) := by
  unfold TcpSocket.socketSend sendPrefix
  simp only [bind_assoc]
  congr 1
  funext c
  cases c
  · rfl
  simp only [Bool.not_true, Bool.false_eq_true, if_false, bind_assoc]
  congr 1
  funext v
  split <;> simp only [pure_bind]

theorem sendPrefix_noFuel (hB : Returning B) (s : TcpSocket) (data : List U8) : NoFuel (sendPrefix B s data) := by
  refine .bind (.bind (.mapErr _ (.read1 hB _ _)) fun _ => .pure _) fun c => ?_
  split
  · exact .throw _
  refine .bind (.mapErr _ (.read2 hB _ _)) fun v => ?_
  have hrest : ∀ wd : List U8, NoFuel (do
    let writePointer ← M.mapErr TcpSocketError.other (s.socket.getTxWritePointer B)
    M.mapErr .other (B.write s.socket.txBuffer writePointer wd)
    M.mapErr .other (s.socket.setTxWritePointer B (writePointer + BitVec.ofNat 16 wd.length))
    M.mapErr .other (s.socket.command B .send)
    pure wd.length) := fun wd =>
    .bind (.mapErr _ (.read2 hB _ _)) fun _ => .bind (.mapErr _ (.write hB _ _ _)) fun _ =>
      .bind (.mapErr _ (.write hB _ _ _)) fun _ => .bind (.mapErr _ (.write hB _ _ _)) fun _ => .pure _
  dsimp only
  split
  · exact .bind (.pure _) fun _ => hrest _
  · exact .bind (.sliceTo _ _) fun _ => hrest _

end W5500
