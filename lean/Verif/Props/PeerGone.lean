import Verif.Lemmas.DrvFrame
import Verif.Spec.Sessions

/-!
C61, continued: the SIM7x00 driver notices that the server closed the connection when it has asked the modem for data
and none are left.
-/

namespace Verif.Props.PeerGone

open Verif Dev

/-- The next call of `run()` finds no complete line, space for a command, and nothing else to do: the port is open, no
answer is waited for and the application has asked for nothing. -/
structure Calm (d : Sim7x00.D) : Prop where
  opened : d.isOpen = true
  unlocked : d.serialLocked = false
  noReset : d.resetPending = false
  noDisconnect : d.disconnectPending = false
  noConnect : d.connectPending = false
  noWait : d.wait = none
  noReply : d.rep = .okReply
  noLine : d.fillLineBuffer.2 = false
  space : 20 ≤ d.fillLineBuffer.1.serSpace
  noRssi : d.rssi ≠ int16Max
  noId : d.ext.id.get 1 = IdType.noRequest.code

/-- `k` calls of `run()`. -/
def runs (p : Platform) (d : Sim7x00.D) : Nat → Sim7x00.D
  | 0 => d
  | k + 1 => Sim7x00.run p (runs p d k) true

private theorem run_calm {p : Platform} {d : Sim7x00.D} (h : Calm d) :
    Sim7x00.run p d true = Sim7x00.act d.fillLineBuffer.1.askSpace := by
  have e1 : Sim7x00.flushIfDisconnecting d.fillLineBuffer.1 = d.fillLineBuffer.1 := by
    unfold Sim7x00.flushIfDisconnecting
    rw [if_neg]
    intro c
    have := c.1
    rw [SimDev.fillLineBuffer_disconnectPending, h.noDisconnect] at this
    cases this
  have hw : d.fillLineBuffer.1.wait = none := by rw [SimDev.fillLineBuffer_wait, h.noWait]
  have hr : d.fillLineBuffer.1.rep = .okReply := by rw [SimDev.fillLineBuffer_rep, h.noReply]
  have hs : d.fillLineBuffer.1.rssi ≠ int16Max := by rw [SimDev.fillLineBuffer_rssi]; exact h.noRssi
  have hi : d.fillLineBuffer.1.ext = d.ext := SimDev.fillLineBuffer_ext d
  unfold Sim7x00.run Sim7x00.work
  rw [if_neg (by rw [h.opened]; exact Bool.noConfusion), if_neg (by rw [h.unlocked]; exact Bool.noConfusion),
    if_neg (by rw [h.noReset]; exact Bool.noConfusion)]
  dsimp only
  rw [if_neg (by rw [h.noLine]; exact Bool.noConfusion), e1]
  unfold Sim7x00.proceed
  rw [if_neg (by rw [hw, hr]; simp), if_neg (by have := h.space; omega)]
  unfold Sim7x00.sendNext
  rw [if_neg (by intro c; exact hs c.1)]
  have e2 : SimDev.sendIDRequest d.fillLineBuffer.1.askSpace Sim7x00.iccidCommand = (d.fillLineBuffer.1.askSpace, false) := by
    unfold SimDev.sendIDRequest
    rw [if_neg]
    intro c
    apply c.1
    show d.fillLineBuffer.1.ext.id.get 1 = _
    rw [hi, h.noId]
  dsimp only
  rw [e2]
  rfl

/-- At the state after the last data: the connection is not reported any more. -/
private theorem gone {p : Platform} {d : Sim7x00.D} (h : Calm d) (hs : d.snd = .ipUnconnected) :
    (Sim7x00.run p d true).snd = .ipUnconnected ∧ (Sim7x00.run p d true).cs = .intermediate := by
  rw [run_calm h]
  have e : d.fillLineBuffer.1.askSpace.snd = .ipUnconnected := by
    show d.fillLineBuffer.1.snd = _
    rw [SimDev.fillLineBuffer_snd, hs]
  unfold Sim7x00.act
  rw [e]
  simp [Dev.askSpace, Dev.handleConnect, h.noDisconnect, h.noConnect, hs]

private theorem act_left {d : Sim7x00.D} (hs : d.snd = .sendCiprxget2 ∨ d.snd = .receiving)
    (hi : (Sim7x00.act d).ipConnected = false) : (Sim7x00.act d).snd ≠ .connected := by
  rcases hs with hs | hs
  · have e : Sim7x00.act d = Sim7x00.actCiprxget2 d := by unfold Sim7x00.act; rw [hs]
    rw [e] at hi ⊢
    unfold Sim7x00.actCiprxget2 at hi ⊢
    dsimp only at hi ⊢
    split
    · rename_i h
      rw [if_pos h] at hi
      simp [Dev.handleDisconnect, h]
    · rename_i h
      rw [if_neg h] at hi
      split
      · split
        · simp
        · simp [hs]
      · rename_i h2
        rw [if_neg h2] at hi
        split
        · rename_i h3
          rw [if_pos h3] at hi
          exact absurd (h3.symm.trans hi) Bool.noConfusion
        · simp
  · have e : Sim7x00.act d = Sim7x00.actReceiving d := by unfold Sim7x00.act; rw [hs]
    rw [e]
    unfold Sim7x00.actReceiving
    dsimp only
    split
    · split <;> simp [hs]
    · split <;> simp

private theorem proceed_left {d : Sim7x00.D} (hs : d.snd = .sendCiprxget2 ∨ d.snd = .receiving)
    (hi : (Sim7x00.proceed d).ipConnected = false) : (Sim7x00.proceed d).snd ≠ .connected := by
  have h0 : d.snd ≠ .connected := by rcases hs with hs | hs <;> rw [hs] <;> exact Sim7x00.Snd.noConfusion
  unfold Sim7x00.proceed at hi ⊢
  split
  · exact h0
  · rename_i h
    rw [if_neg h] at hi
    split
    · exact h0
    · rename_i h
      rw [if_neg h] at hi
      unfold Sim7x00.sendNext at hi ⊢
      split
      · simp [Dev.askSpace, h0]
      · rename_i h
        rw [if_neg h] at hi
        dsimp only at hi ⊢
        have e : (SimDev.sendIDRequest d.askSpace Sim7x00.iccidCommand).1.snd = d.snd := by simp [Dev.askSpace]
        split
        · exact fun c => h0 (e.symm.trans c)
        · rename_i h
          rw [if_neg h] at hi
          exact act_left (by rw [e]; exact hs) hi

private theorem parse_left {p : Platform} {d : Sim7x00.D} (hs : d.snd = .sendCiprxget2) :
    ((Sim7x00.parseLine p d).2 = true ∧ (Sim7x00.parseLine p d).1.snd ≠ .connected) ∨
      (Sim7x00.parseLine p d).1.snd = .sendCiprxget2 ∨ (Sim7x00.parseLine p d).1.snd = .receiving := by
  have e1 : (Sim7x00.parseWait d).1.snd = .sendCiprxget2 := by
    unfold Sim7x00.parseWait
    split
    · split
      · exact hs
      · split <;> exact hs
    · exact hs
  have e2 : ∀ c : Sim7x00.D, (Sim7x00.checkState c).snd = c.snd := by
    intro c
    unfold Sim7x00.checkState SimDev.checkConnectionState
    repeat' split
    all_goals rfl
  have e3 : ∀ c : Sim7x00.D, c.snd = .sendCiprxget2 →
      ((Sim7x00.parseReply p c).2 = true ∧ (Sim7x00.parseReply p c).1.snd ≠ .connected) ∨
        (Sim7x00.parseReply p c).1.snd = .sendCiprxget2 ∨ (Sim7x00.parseReply p c).1.snd = .receiving := by
    intro c hc
    unfold Sim7x00.parseReply
    repeat' split
    all_goals simp [hc]
    all_goals (split <;> simp [hc])
  unfold Sim7x00.parseLine
  dsimp only
  split
  · rename_i h
    exact .inl ⟨h, by rw [e1]; exact Sim7x00.Snd.noConfusion⟩
  · have h3 := e3 _ e1
    split
    · exact h3
    · rename_i h
      rcases h3 with h3 | h3
      · exact absurd h3.1 h
      · exact .inr (by rw [e2]; exact h3)

/-- C61, SIM7x00: a driver which asked for data does not go back to the state of an open connection in a call of
`run()` after which it knows that the server closed it. -/
theorem C61_sim7x00_leaves (p : Platform) (d : Sim7x00.D) (ok : Bool) (hs : d.snd = .sendCiprxget2)
    (hi : (Sim7x00.run p d ok).ipConnected = false) : (Sim7x00.run p d ok).snd ≠ .connected := by
  have h0 : d.snd ≠ .connected := by rw [hs]; exact Sim7x00.Snd.noConfusion
  unfold Sim7x00.run at hi ⊢
  split
  · unfold Sim7x00.tryOpen
    split
    · exact h0
    · exact Sim7x00.Snd.noConfusion
  · rename_i h
    rw [if_neg h] at hi
    split
    · exact h0
    · rename_i h
      rw [if_neg h] at hi
      split
      · unfold Sim7x00.handleReset
        have key : ∀ (q : Prop) (i : Decidable q), (@ite _ q i Sim7x00.Snd.connecting .notConnected) ≠ .connected := by
          intro q i
          cases i <;> exact Sim7x00.Snd.noConfusion
        simp
        exact key _ _
      · rename_i h
        rw [if_neg h] at hi
        have e : d.fillLineBuffer.1.snd = .sendCiprxget2 := by rw [SimDev.fillLineBuffer_snd, hs]
        unfold Sim7x00.work at hi ⊢
        dsimp only at hi ⊢
        split
        · rename_i h
          rw [if_pos h] at hi
          have h3 := parse_left (p := p) e
          split
          · rcases h3 with h3 | h3 | h3
            · exact h3.2
            · rw [h3]; exact Sim7x00.Snd.noConfusion
            · rw [h3]; exact Sim7x00.Snd.noConfusion
          · rename_i h
            rw [if_neg h] at hi
            rcases h3 with h3 | h3
            · exact absurd h3.1 h
            · exact proceed_left h3 hi
        · rename_i h
          rw [if_neg h] at hi
          refine proceed_left (.inl ?_) hi
          unfold Sim7x00.flushIfDisconnecting
          split
          · simp [hs]
          · exact e

/-- C61, SIM7x00: from the next call of `run()` on the driver reports neither a connection nor that it is idle, as long
as no line arrives and the application asks for nothing. -/
theorem C61_sim7x00_gone (p : Platform) (d : Sim7x00.D) (hs : d.snd = .ipUnconnected) (k : Nat)
    (hc : ∀ i, i ≤ k → Calm (runs p d i)) :
    (runs p d (k + 1)).isConnected = false ∧ (runs p d (k + 1)).isIdle = false := by
  have h2 : ∀ j, j ≤ k → (runs p d j).snd = .ipUnconnected := by
    intro j
    induction j with
    | zero => exact fun _ => hs
    | succ j ih => exact fun hj => (gone (hc j (by omega)) (ih (by omega))).1
  have h4 : (runs p d (k + 1)).cs = .intermediate := (gone (p := p) (hc k (by omega)) (h2 k (by omega))).2
  unfold Dev.isConnected Dev.isIdle
  rw [h4]
  exact ⟨rfl, rfl⟩

/-- The server sends three bytes and closes; the driver fetches them and learns that there are no more. -/
def closing : List Op := Sess.up7x00 .tcp ++ Sess.talk b!"+CIPRXGET: 1,0\r\n" ++ Sess.talk b!"+IPCLOSE: 0,1\r\n" ++
  Sess.talk b!"+CIPRXGET: 4,0,3\r\n" ++ Sess.talk b!"OK\r\n" ++ Sess.talk b!"+CIPRXGET: 2,0,3,0\r\n" ++ Sess.talk b!"abc" ++
  Sess.talk b!"OK\r\n" ++ Sess.talk b!"+CIPRXGET: 4,0,0\r\n" ++ Sess.talk b!"OK\r\n"

/-- The state before `m` last calls of that session. -/
def before (m : Nat) : Sim7x00.D := exec (Sim7x00.step Sess.arm) Sess.sim7x00 (closing.take (closing.length - m))

/-- C61, SIM7x00: in this session the close is noticed, after the three bytes were delivered; with `disconnect()` the
driver becomes idle. -/
theorem C61_sim7x00_noticed :
    (before 2).isConnected = true ∧ (before 0).isConnected = false ∧ (before 0).isIdle = false ∧
      ((before 0).read 8).2.take 3 = b!"abc" ∧
      (exec (Sim7x00.step Sess.arm) (before 0) Sess.down7x00).isIdle = true := by
  decide +kernel

/-- The hypotheses of `C61_sim7x00_leaves` are met in that session. -/
example : (before 2).snd = .sendCiprxget2 ∧ (Sim7x00.run Sess.arm (before 2) true).ipConnected = false := by decide +kernel

private theorem calm_of {d : Sim7x00.D} (h : d.isOpen = true ∧ d.serialLocked = false ∧ d.resetPending = false ∧
    d.disconnectPending = false ∧ d.connectPending = false ∧ d.wait = none ∧ d.rep = .okReply ∧ d.fillLineBuffer.2 = false ∧
    20 ≤ d.fillLineBuffer.1.serSpace ∧ d.rssi ≠ int16Max ∧ d.ext.id.get 1 = IdType.noRequest.code) : Calm d :=
  have ⟨a, b, c, e, f, g, i, j, k, l, m⟩ := h
  ⟨a, b, c, e, f, g, i, j, k, l, m⟩

/-- Those of `C61_sim7x00_gone` too. -/
example : (before 1).snd = .ipUnconnected ∧ Calm (before 1) ∧ Calm (before 0) :=
  ⟨by decide +kernel, calm_of (by decide +kernel), calm_of (by decide +kernel)⟩

end Verif.Props.PeerGone
