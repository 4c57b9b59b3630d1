import Verif.Lemmas.Early
import Verif.Lemmas.Request
import Verif.Model.Espressif
import Verif.Model.CC1352P7

/-!
# Bytes that arrive early: the other drivers
-/

namespace Verif

namespace Espressif

variable {d : D}

theorem more_parseReply (p : Platform) (d : D) (y : List Byte) :
    parseReply p (d.more y) = (parseReply p d).more y := by
  have e1 : parseCiprecvdata p (d.more y) = ((parseCiprecvdata p d).1.more y, (parseCiprecvdata p d).2) := by
    unfold parseCiprecvdata; early
  unfold parseReply
  rw [e1]
  have e : (d.more y).rep = d.rep := rfl
  rw [e]
  cases hq : d.rep <;> dsimp only
  case parseStateCiprecvdata => early
  case reqMac =>
    early
  case rssi =>
    early
  all_goals early

theorem more_checkState (p : Platform) (d : D) (y : List Byte) : checkState p (d.more y) = (checkState p d).more y := by
  unfold checkState
  dsimp only
  early

theorem more_parseLine (p : Platform) (d : D) (y : List Byte) :
    parseLine p (d.more y) = ((parseLine p d).1.more y, (parseLine p d).2) := by
  have e : ∀ d : D, parseWait (d.more y) = (parseWait d).more y := by intro d; unfold parseWait; early
  have e' : parseSendFail (d.more y) = (parseSendFail d).more y := by unfold parseSendFail; early
  unfold parseLine
  rw [e', e, more_parseReply, more_checkState]
  early

theorem more_act (h : d.ser.sched = []) (y : List Byte) (ha : d.snd = .sendCiprecvdata → d.bytesToReceive = 0)
    (hr : d.snd = .receiving → Dev.Takes d y) : act (d.more y) = (act d).more y := by
  unfold act
  have e : (d.more y).snd = d.snd := rfl
  rw [e]
  cases hq : d.snd <;> dsimp only
  case notConnected => rw [← hq]; exact Dev.more_handleConnect ({ d with delay := 10, cs := .notConnected } : D) y .connecting
  case connecting => rw [Dev.more_sendCommand h]; rfl
  case sendCwmode => rw [Dev.more_cmd h, Dev.more_arg (Dev.sched_cmd h _)]; rfl
  case sendCwjap =>
    unfold actCwjap
    have e0 : (d.more y).ext = d.ext := rfl
    have h1 := Dev.sched_cmd h b!"AT+CWJAP=\""
    have h2 := Dev.sched_argN h1 d.ext.ssid.val
    have h3 := Dev.sched_arg h2 b!"\",\""
    have h4 := Dev.sched_argN h3 d.ext.passwd.val
    dsimp only
    rw [e0, Dev.more_cmd h, Dev.more_argN h1, Dev.more_arg h2, Dev.more_argN h3, Dev.more_arg h4]; rfl
  case sendCipmux => rw [Dev.more_sendCommand h]; rfl
  case sendCiprecvmode => rw [Dev.more_sendCommand h]; rfl
  case sendCipmode => rw [Dev.more_sendCommand h]; rfl
  case sendCipstart =>
    unfold actCipstart
    have key : ∀ e : D, e.ser.sched = [] →
        ({ ((((((e.more y).cmd b!"AT+CIPSTART").arg (protoStr e.typ)).arg (e.host.getD [])).arg b!"\",").arg (dec5 e.port)).arg lineEnd with
          wait := some okStr, snd := .finalizeConnect } : D) =
        ({ (((((e.cmd b!"AT+CIPSTART").arg (protoStr e.typ)).arg (e.host.getD [])).arg b!"\",").arg (dec5 e.port)).arg lineEnd with
          wait := some okStr, snd := .finalizeConnect } : D).more y := by
      intro e he
      have h1 := Dev.sched_cmd he b!"AT+CIPSTART"
      have h2 := Dev.sched_arg h1 (protoStr e.typ)
      have h3 := Dev.sched_arg h2 (e.host.getD [])
      have h4 := Dev.sched_arg h3 b!"\","
      have h5 := Dev.sched_arg h4 (dec5 e.port)
      rw [Dev.more_cmd he, Dev.more_arg h1, Dev.more_arg h2, Dev.more_arg h3, Dev.more_arg h4, Dev.more_arg h5]; rfl
    have e0 : (d.more y).host = d.host := rfl
    dsimp only
    rw [e0]
    split
    · exact key { d with ub := true } h
    · exact key d h
  case finalizeConnect => rfl
  case connected =>
    unfold actConnected
    rw [Dev.more_prepareSending h]
    have h1 := Dev.sched_prepareSending h false
    generalize d.prepareSending false = r at h1
    dsimp only
    rw [Dev.more_arg h1]
    refine Dev.more_ite (fun _ => ?_) (fun _ => ?_)
    · early
    · refine Dev.more_ite (fun _ => rfl) (fun _ => ?_)
      refine Dev.more_ite (fun _ => ?_) (fun _ => rfl)
      refine Dev.more_ite (fun _ => ?_) (fun _ => rfl)
      exact congrArg (fun z : D => ({ z with delay := 100 } : D))
        (Dev.more_handleDisconnect ({ d with cs := .connected } : D) y .sendCipclose)
  case sendDataState => rw [← Dev.more_sendData h]; rfl
  case sendCiprecvdata =>
    unfold actCiprecvdata
    have e0 : (d.more y).disconnectPending = d.disconnectPending := rfl
    have e1 : (d.more y).bytesToReceive = 0 := ha hq
    rw [e0, e1, ha hq, Dev.more_handleDisconnect]
    simp only [gt_iff_lt, Nat.lt_irrefl, if_false]
    split <;> rfl
  case receiving =>
    unfold actReceiving
    rcases hr hq with h0 | ⟨rq, rx, hs, hl, hb⟩
    · have e1 : (d.more y).bytesToRead = 0 := h0
      have e2 : (d.more y).bytesToReceive = d.bytesToReceive := rfl
      rw [e1, e2, h0]
      simp only [gt_iff_lt, Nat.lt_irrefl, if_false]
      split <;> rfl
    · obtain ⟨k1, k2⟩ := Dev.more_receive hs y hl hb
      rw [k1]
      dsimp only
      rw [k2]
      refine Dev.more_ite (fun _ => ?_) (fun _ => ?_)
      · early
      · refine Dev.more_ite (fun _ => rfl) (fun _ => rfl)
  case sendCipclose =>
    rw [Dev.more_sendCommand h]
    early
  case sendCwqap => rw [Dev.more_sendCommand h]; rfl
  case finalizeDisconnect => rfl

theorem more_sendNext (p : Platform) (h : d.ser.sched = []) (y : List Byte) (ha : d.snd = .sendCiprecvdata → d.bytesToReceive = 0)
    (hr : d.snd = .receiving → Dev.Takes d y) : sendNext p (d.more y) = (sendNext p d).more y := by
  unfold sendNext
  rw [Dev.more_sendCommand h, Dev.more_sendCommand h]
  refine Dev.more_ite (fun _ => rfl) (fun _ => ?_)
  refine Dev.more_ite (fun _ => rfl) (fun _ => ?_)
  exact more_act h y ha hr

theorem more_proceed (p : Platform) (h : d.ser.sched = []) (y : List Byte) (ha : d.snd = .sendCiprecvdata → d.bytesToReceive = 0)
    (hr : d.snd = .receiving → Dev.Takes d y) : proceed p (d.more y) = (proceed p d).more y := by
  unfold proceed
  rw [Dev.more_serSpace h, Dev.more_askSpace h]
  refine Dev.more_ite (fun _ => rfl) (fun _ => ?_)
  refine Dev.more_ite (fun _ => rfl) (fun _ => ?_)
  exact more_sendNext p (Dev.sched_askSpace h) y ha (fun e => (hr e).askSpace)

/-- A line that is complete is handled without regard to what is behind it, unless the next step is to ask for data or
to take a block. -/
theorem more_work (p : Platform) {rq : List Byte} {rx : Nat} (h : Ser.Still d.ser rq rx) (y : List Byte)
    (hl : rq.length + y.length ≤ rx) (hf : (fillLineBuffer d).2 = true)
    (ha : (parseLine p (fillLineBuffer d).1).1.snd = .sendCiprecvdata → (parseLine p (fillLineBuffer d).1).1.bytesToReceive = 0)
    (hr : (parseLine p (fillLineBuffer d).1).1.snd = .receiving → Dev.Takes (parseLine p (fillLineBuffer d).1).1 y) :
    work p (d.more y) = (work p d).more y := by
  obtain ⟨e, rq', k, _⟩ := Dev.more_fillLine (lineStop d.typ d.rep) h y hl hf
  have e' : fillLineBuffer (d.more y) = ((fillLineBuffer d).1.more y, true) := e
  have hs : (parseLine p (fillLineBuffer d).1).1.ser.sched = [] := by
    rw [parseLine_ser]; exact k.sched
  unfold work
  dsimp only
  rw [e', hf]
  simp only [if_true]
  rw [more_parseLine]
  dsimp only
  split
  · rfl
  · exact more_proceed p hs y ha hr

end Espressif

namespace CC1352P7

variable {d : D}

theorem more_parseMac (d : D) (y : List Byte) : parseMac (d.more y) = (parseMac d).more y := by
  unfold parseMac; early

theorem more_parseReply (p : Platform) (d : D) (y : List Byte) :
    parseReply p (d.more y) = (parseReply p d).more y := by
  have e1 : parseCiprecvdata p (d.more y) = ((parseCiprecvdata p d).1.more y, (parseCiprecvdata p d).2) := by
    unfold parseCiprecvdata; early
  have e2 : parseCsq p (d.more y) = ((parseCsq p d).1.more y, (parseCsq p d).2) := by
    unfold parseCsq; early
  unfold parseReply
  rw [e1, e2]
  have e : (d.more y).rep = d.rep := rfl
  rw [e]
  cases d.rep <;> dsimp only
  case parseStateCiprecvdata => early
  case reqMac => exact more_parseMac d y
  case csq =>
    rw [← more_parseMac]
    congr 1
    early

theorem more_checkState (p : Platform) (d : D) (y : List Byte) : checkState p (d.more y) = (checkState p d).more y := by
  unfold checkState
  early

theorem more_parseLine (p : Platform) (d : D) (y : List Byte) :
    parseLine p (d.more y) = ((parseLine p d).1.more y, (parseLine p d).2) := by
  have e : ∀ d : D, parseWait (d.more y) = (parseWait d).more y := by intro d; unfold parseWait; early
  unfold parseLine
  rw [e, more_parseReply, more_checkState]
  early

/-- `actCipstart` after the check of the host. -/
def cipTail (d : D) : D :=
  let d := d.cmd b!"AT+CIPSTART"
  let d := if d.typ = .udp then d.arg b!"=\"UDP\",\"" else d.arg b!"=\"TCP\",\""
  let d := (((d.arg (d.host.getD [])).arg b!"\",").arg (dec5 d.port)).arg lineEnd
  { d with wait := some okStr, snd := .finalizeConnect }

theorem more_cipTail (h : d.ser.sched = []) (y : List Byte) : cipTail (d.more y) = (cipTail d).more y := by
  unfold cipTail
  rw [Dev.more_cmd h]
  have h1 := Dev.sched_cmd h b!"AT+CIPSTART"
  generalize d.cmd b!"AT+CIPSTART" = d1 at h1
  dsimp only
  have e1 : (d1.more y).typ = d1.typ := rfl
  rw [e1, Dev.more_arg h1, Dev.more_arg h1]
  have h2 := Dev.sched_arg h1 b!"=\"UDP\",\""
  have h3 := Dev.sched_arg h1 b!"=\"TCP\",\""
  generalize d1.arg b!"=\"UDP\",\"" = d2 at h2
  generalize d1.arg b!"=\"TCP\",\"" = d3 at h3
  have key : ∀ e : D, e.ser.sched = [] →
      ({ ((((e.more y).arg ((e.more y).host.getD [])).arg b!"\",").arg (dec5 (e.more y).port)).arg lineEnd with
        wait := some okStr, snd := .finalizeConnect } : D) =
      ({ (((e.arg (e.host.getD [])).arg b!"\",").arg (dec5 e.port)).arg lineEnd with
        wait := some okStr, snd := .finalizeConnect } : D).more y := by
    intro e he
    have f1 : (e.more y).host = e.host := rfl
    have f2 : (e.more y).port = e.port := rfl
    rw [f1, f2, Dev.more_arg he, Dev.more_arg (Dev.sched_arg he _), Dev.more_arg (Dev.sched_arg (Dev.sched_arg he _) _),
      Dev.more_arg (Dev.sched_arg (Dev.sched_arg (Dev.sched_arg he _) _) _)]; rfl
  split
  · exact key d2 h2
  · exact key d3 h3

theorem more_act (h : d.ser.sched = []) (y : List Byte) (ha : d.snd = .sendCiprecvdata → d.bytesToReceive = 0)
    (hr : d.snd = .receiving → Dev.Takes d y) : act (d.more y) = (act d).more y := by
  unfold act
  have e : (d.more y).snd = d.snd := rfl
  rw [e]
  cases hq : d.snd <;> dsimp only
  case notConnected => rw [← hq]; exact Dev.more_handleConnect ({ d with cs := .notConnected } : D) y .connecting
  case connecting => rw [Dev.more_sendCommand h]; rfl
  case sendCipstart =>
    have e1 : actCipstart (d.more y) = cipTail (if d.host = none then { d.more y with ub := true } else d.more y) := rfl
    have e2 : (if d.host = none then ({ d.more y with ub := true } : D) else d.more y) =
      (if d.host = none then ({ d with ub := true } : D) else d).more y := by early
    have e3 : (if d.host = none then ({ d with ub := true } : D) else d).ser.sched = [] := by split <;> exact h
    rw [e1, e2, more_cipTail e3]; rfl
  case finalizeConnect => rfl
  case connected =>
    unfold actConnected
    rw [Dev.more_prepareSending h]
    have h1 := Dev.sched_prepareSending h false
    generalize d.prepareSending false = r at h1
    dsimp only
    rw [Dev.more_arg h1]
    refine Dev.more_ite (fun _ => ?_) (fun _ => ?_)
    · early
    · refine Dev.more_ite (fun _ => rfl) (fun _ => ?_)
      refine Dev.more_ite (fun _ => ?_) (fun _ => rfl)
      exact Dev.more_handleDisconnect ({ d with cs := .connected } : D) y .sendCipclose
  case sendDataState => rw [← Dev.more_sendData h]; rfl
  case sendCiprecvdata =>
    unfold actCiprecvdata
    have e0 : (d.more y).disconnectPending = d.disconnectPending := rfl
    have e1 : (d.more y).bytesToReceive = 0 := ha hq
    rw [e0, e1, ha hq, Dev.more_handleDisconnect]
    simp only [gt_iff_lt, Nat.lt_irrefl, if_false]
    split <;> rfl
  case receiving =>
    unfold actReceiving
    rcases hr hq with h0 | ⟨rq, rx, hs, hl, hb⟩
    · have e1 : (d.more y).bytesToRead = 0 := h0
      have e2 : (d.more y).bytesToReceive = d.bytesToReceive := rfl
      rw [e1, e2, h0]
      simp only [gt_iff_lt, Nat.lt_irrefl, if_false]
      split <;> rfl
    · obtain ⟨k1, k2⟩ := Dev.more_receive hs y hl hb
      rw [k1]
      dsimp only
      rw [k2]
      refine Dev.more_ite (fun _ => ?_) (fun _ => ?_)
      · early
      · refine Dev.more_ite (fun _ => rfl) (fun _ => rfl)
  case sendCipclose => rw [Dev.more_sendCommand h]; rfl
  case finalizeDisconnect => rfl

theorem more_sendNext (p : Platform) (h : d.ser.sched = []) (y : List Byte) (ha : d.snd = .sendCiprecvdata → d.bytesToReceive = 0)
    (hr : d.snd = .receiving → Dev.Takes d y) : sendNext p (d.more y) = (sendNext p d).more y := by
  unfold sendNext
  rw [Dev.more_sendCommand h, Dev.more_sendCommand h]
  refine Dev.more_ite (fun _ => rfl) (fun _ => ?_)
  refine Dev.more_ite (fun _ => rfl) (fun _ => ?_)
  exact more_act h y ha hr

theorem more_proceed (p : Platform) (h : d.ser.sched = []) (y : List Byte) (ha : d.snd = .sendCiprecvdata → d.bytesToReceive = 0)
    (hr : d.snd = .receiving → Dev.Takes d y) : proceed p (d.more y) = (proceed p d).more y := by
  unfold proceed
  rw [Dev.more_serSpace h, Dev.more_askSpace h]
  refine Dev.more_ite (fun _ => rfl) (fun _ => ?_)
  refine Dev.more_ite (fun _ => rfl) (fun _ => ?_)
  exact more_sendNext p (Dev.sched_askSpace h) y ha (fun e => (hr e).askSpace)

/-- A line that is complete is handled without regard to what is behind it, unless the next step is to ask for data or
to take a block. -/
theorem more_work (p : Platform) {rq : List Byte} {rx : Nat} (h : Ser.Still d.ser rq rx) (y : List Byte)
    (hl : rq.length + y.length ≤ rx) (hf : (fillLineBuffer d).2 = true)
    (ha : (parseLine p (fillLineBuffer d).1).1.snd = .sendCiprecvdata → (parseLine p (fillLineBuffer d).1).1.bytesToReceive = 0)
    (hr : (parseLine p (fillLineBuffer d).1).1.snd = .receiving → Dev.Takes (parseLine p (fillLineBuffer d).1).1 y) :
    work p (d.more y) = (work p d).more y := by
  obtain ⟨e, rq', k, _⟩ := Dev.more_fillLine (lineStop d.rep) h y hl hf
  have e' : fillLineBuffer (d.more y) = ((fillLineBuffer d).1.more y, true) := e
  have hs : (parseLine p (fillLineBuffer d).1).1.ser.sched = [] := by
    rw [parseLine_ser]; exact k.sched
  unfold work
  dsimp only
  rw [e', hf]
  simp only [if_true]
  rw [more_parseLine]
  dsimp only
  split
  · rfl
  · exact more_proceed p hs y ha hr

end CC1352P7

end Verif
