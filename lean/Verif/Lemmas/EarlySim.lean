import Verif.Lemmas.Early
import Verif.Lemmas.Request
import Verif.Model.Sim7x00
import Verif.Model.Sim800

/-!
# Bytes that arrive early: the cellular drivers
-/

namespace Verif

namespace SimDev

variable {S R : Type} {d : SimDev S R}

theorem more_parseDnsReply (d : SimDev S R) (y : List Byte) :
    parseDnsReply (d.more y) = ((parseDnsReply d).1.more y, (parseDnsReply d).2) := by
  unfold parseDnsReply
  early

theorem more_parseCiprxget4 (p : Platform) (d : SimDev S R) (y : List Byte) :
    parseCiprxget4 p (d.more y) = ((parseCiprxget4 p d).1.more y, (parseCiprxget4 p d).2) := by
  unfold parseCiprxget4
  early

theorem more_parseCiprxget2 (p : Platform) (d : SimDev S R) (y : List Byte) :
    parseCiprxget2 p (d.more y) = ((parseCiprxget2 p d).1.more y, (parseCiprxget2 p d).2) := by
  unfold parseCiprxget2
  early

theorem more_parseCsq (p : Platform) (d : SimDev S R) (y : List Byte) :
    parseCsq p (d.more y) = ((parseCsq p d).1.more y, (parseCsq p d).2) := by
  unfold parseCsq
  early

theorem more_parseIDReply (d : SimDev S R) (y : List Byte) :
    parseIDReply (d.more y) = ((parseIDReply d).1.more y, (parseIDReply d).2) := by
  have go : ∀ (d : SimDev S R) l, parseIDReply.go (d.more y) l = ((parseIDReply.go d l).1.more y, (parseIDReply.go d l).2) := by
    intro d l
    unfold parseIDReply.go
    early
  unfold parseIDReply
  rw [go, go]
  early

theorem more_checkConnectionState (d : SimDev S R) (y l : List Byte) :
    checkConnectionState (d.more y) l = (checkConnectionState d l).more y := by
  unfold checkConnectionState
  early

theorem more_sendDnsQuery (h : d.ser.sched = []) (y : List Byte) :
    sendDnsQuery (d.more y) = ((sendDnsQuery d).1.more y, (sendDnsQuery d).2) := by
  have key : ∀ e : SimDev S R, e.ser.sched = [] → ∀ l : List Byte,
      (if (e.more y).serSpace < l.length + 20 then ((e.more y).askSpace, false)
        else ((((e.more y).askSpace.cmd b!"AT+CDNSGIP=\"").arg l).arg quoteEnd, true)) =
      ((if e.serSpace < l.length + 20 then (e.askSpace, false)
        else (((e.askSpace.cmd b!"AT+CDNSGIP=\"").arg l).arg quoteEnd, true)).1.more y,
       (if e.serSpace < l.length + 20 then (e.askSpace, false)
        else (((e.askSpace.cmd b!"AT+CDNSGIP=\"").arg l).arg quoteEnd, true)).2) := by
    intro e he l
    have h1 := Dev.sched_askSpace he
    rw [Dev.more_serSpace he, Dev.more_askSpace he, Dev.more_cmd h1, Dev.more_arg (Dev.sched_cmd h1 _),
      Dev.more_arg (Dev.sched_arg (Dev.sched_cmd h1 _) _)]
    split <;> rfl
  unfold sendDnsQuery
  have e0 : (d.more y).host = d.host := rfl
  rw [e0]
  split
  · exact key { d with ub := true } h _
  · exact key d h _

theorem more_sendIDRequest (h : d.ser.sched = []) (y c : List Byte) :
    sendIDRequest (d.more y) c = ((sendIDRequest d c).1.more y, (sendIDRequest d c).2) := by
  unfold sendIDRequest
  have e0 : (d.more y).ext = d.ext := rfl
  have e1 : (d.more y).lineRead = d.lineRead := rfl
  rw [e0, e1]
  split
  · split
    · exact congrArg (fun z => (z, true))
        (Dev.more_sendCommand (d := ({ d with ext := { d.ext with id := d.ext.id.store 1 0 } } : SimDev S R)) h y _)
    · rfl
  · rfl

theorem sched_sendIDRequest (h : d.ser.sched = []) (c : List Byte) : (sendIDRequest d c).1.ser.sched = [] := by
  unfold sendIDRequest
  split
  · split
    · exact Dev.sched_sendCommand (d := ({ d with ext := { d.ext with id := d.ext.id.store 1 0 } } : SimDev S R)) h _
    · exact h
  · exact h

theorem sendIDRequest_frame (c : List Byte) (hf : (sendIDRequest d c).2 = false) :
    (sendIDRequest d c).1.snd = d.snd ∧ (sendIDRequest d c).1.bytesToReceive = d.bytesToReceive ∧
      (sendIDRequest d c).1.bytesToRead = d.bytesToRead ∧ (sendIDRequest d c).1.ser = d.ser := by
  unfold sendIDRequest at hf ⊢
  split
  · rename_i h1
    split
    · rename_i h2
      rw [if_pos h1, h2] at hf; simp at hf
    · exact ⟨rfl, rfl, rfl, rfl⟩
  · exact ⟨rfl, rfl, rfl, rfl⟩

end SimDev

namespace Sim7x00

variable {d : D}

theorem more_parseReply (p : Platform) (d : D) (y : List Byte) :
    parseReply p (d.more y) = ((parseReply p d).1.more y, (parseReply p d).2) := by
  unfold parseReply
  rw [SimDev.more_parseDnsReply, SimDev.more_parseCiprxget4, SimDev.more_parseCiprxget2, SimDev.more_parseCsq,
    SimDev.more_parseIDReply]
  generalize d.parseDnsReply = a1
  generalize SimDev.parseCiprxget4 p d = a2
  generalize SimDev.parseCiprxget2 p d = a3
  generalize SimDev.parseCsq p d = a4
  generalize d.parseIDReply = a5
  have e : (d.more y).rep = d.rep := rfl
  rw [e]
  cases d.rep <;> dsimp only
  all_goals early

theorem more_checkState (d : D) (y : List Byte) : checkState (d.more y) = (checkState d).more y := by
  unfold checkState
  rw [SimDev.more_checkConnectionState]
  have e : (d.more y).snd = d.snd := rfl
  rw [e]
  split <;> rfl

theorem more_parseWait (d : D) (y : List Byte) : parseWait (d.more y) = ((parseWait d).1.more y, (parseWait d).2) := by
  unfold parseWait
  early

theorem more_parseLine (p : Platform) (d : D) (y : List Byte) :
    parseLine p (d.more y) = ((parseLine p d).1.more y, (parseLine p d).2) := by
  unfold parseLine
  rw [more_parseWait]
  dsimp only
  rw [more_parseReply]
  dsimp only
  rw [more_checkState]
  split
  · rfl
  · split <;> rfl

theorem more_act (h : d.ser.sched = []) (y : List Byte) (ha : d.snd = .sendCiprxget2 → d.bytesToReceive = 0)
    (hr : d.snd = .receiving → Dev.Takes d y) : act (d.more y) = (act d).more y := by
  unfold act
  have e : (d.more y).snd = d.snd := rfl
  rw [e]
  cases hq : d.snd <;> dsimp only
  case notConnected => rw [← hq]; exact Dev.more_handleConnect ({ d with delay := 10, cs := .notConnected } : D) y .connecting
  case connecting => rw [Dev.more_sendCommand h]; rfl
  case sendCgsockcont =>
    unfold actCgsockcont
    have e0 : (d.more y).ext = d.ext := rfl
    rw [e0]
    have key : ∀ e : D, e.ser.sched = [] → ((({ (((e.more y).cmdN b!"AT+CGSOCKCONT=1,\"IP\",\"").argN (e.ext.apn.getD [])).arg quoteEnd with
        wait := some okStr, snd := .sendCsocksetpn }) : D)) =
        ({ ((e.cmdN b!"AT+CGSOCKCONT=1,\"IP\",\"").argN (e.ext.apn.getD [])).arg quoteEnd with
        wait := some okStr, snd := .sendCsocksetpn } : D).more y := by
      intro e he
      rw [Dev.more_cmdN he, Dev.more_argN (Dev.sched_cmdN he _), Dev.more_arg (Dev.sched_argN (Dev.sched_cmdN he _) _)]; rfl
    dsimp only
    split
    · exact key { d with ub := true } h
    · exact key d h
  case sendCsocksetpn => rw [Dev.more_sendCommand h]; rfl
  case sendCipmode => rw [Dev.more_sendCommand h]; rfl
  case sendNetopen =>
    have e0 : (d.more y).disconnectPending = d.disconnectPending := rfl
    rw [e0, Dev.more_handleDisconnect, Dev.more_sendCommand h]
    split <;> rfl
  case sendCiprxget => rw [Dev.more_sendCommand h]; rfl
  case sendDnsQuery =>
    rw [SimDev.more_sendDnsQuery h]
    dsimp only
    split <;> rfl
  case sendCipopen =>
    unfold actCipopen
    rw [Dev.more_cmd h]
    have h1 := Dev.sched_cmd h b!"AT+CIPOPEN"
    generalize d.cmd b!"AT+CIPOPEN" = d1 at h1
    dsimp only
    have e1 : (d1.more y).typ = d1.typ := rfl
    have e2 : (d1.more y).ext = d1.ext := rfl
    rw [e1, e2, Dev.more_arg h1, Dev.more_arg h1, Dev.more_arg (Dev.sched_arg h1 _), Dev.more_arg (Dev.sched_arg (Dev.sched_arg h1 _) _)]
    have h2 := Dev.sched_arg h1 b!"=0,\"UDP\",,,"
    have h3 := Dev.sched_arg (Dev.sched_arg (Dev.sched_arg h1 b!"=0,\"TCP\",\"") (cstr d1.ext.ip.cells)) b!"\","
    generalize d1.arg b!"=0,\"UDP\",,," = d2 at h2
    generalize ((d1.arg b!"=0,\"TCP\",\"").arg (cstr d1.ext.ip.cells)).arg b!"\"," = d3 at h3
    split
    · rw [Dev.more_arg h2, Dev.more_arg (Dev.sched_arg h2 _)]; rfl
    · rw [Dev.more_arg h3, Dev.more_arg (Dev.sched_arg h3 _)]; rfl
  case finalizeConnect => rfl
  case connected =>
    unfold actConnected
    rw [Dev.more_prepareSending h]
    have h1 := Dev.sched_prepareSending h true
    have e0 : (d.more y).wbuf = d.wbuf := rfl
    have e1 : (d.more y).dataPending = d.dataPending := rfl
    rw [e0, e1]
    generalize d.prepareSending true = r at h1
    dsimp only
    have e2 : (r.1.more y).typ = r.1.typ := rfl
    have e3 : (r.1.more y).ext = r.1.ext := rfl
    rw [e2, e3]
    split
    · split
      · have h2 := Dev.sched_arg h1 b!",\""
        have h3 := Dev.sched_arg h2 (cstr r.1.ext.ip.cells)
        have h4 := Dev.sched_arg h3 b!"\","
        rw [Dev.more_arg h1, Dev.more_arg h2, Dev.more_arg h3]
        have e4 : (((((r.1.arg b!",\"").arg (cstr r.1.ext.ip.cells)).arg b!"\",").more y)).arg (dec5 (r.1.more y).port) =
          ((((r.1.arg b!",\"").arg (cstr r.1.ext.ip.cells)).arg b!"\",").arg (dec5 r.1.port)).more y := Dev.more_arg h4 y _
        rw [e4]
        split
        · rw [Dev.more_arg (Dev.sched_arg h4 _)]; rfl
        · rw [Dev.more_arg h1]; rfl
      · rfl
    · split
      · rfl
      · exact Dev.more_handleDisconnect ({ d with cs := .connected } : D) y .sendNetclose
  case sendData => rw [← Dev.more_sendData h]; rfl
  case sendCiprxget4 => rw [Dev.more_sendCommand h]; rfl
  case sendCiprxget2 =>
    unfold actCiprxget2
    have e0 : (d.more y).disconnectPending = d.disconnectPending := rfl
    have e1 : (d.more y).bytesToReceive = 0 := ha hq
    have e2 : (d.more y).ipConnected = d.ipConnected := rfl
    rw [e0, e1, e2, ha hq, Dev.more_handleDisconnect]
    simp only [gt_iff_lt, Nat.lt_irrefl, if_false]
    split
    · rfl
    · split <;> rfl
  case receiving =>
    unfold actReceiving
    rcases hr hq with h0 | ⟨rq, rx, hs, hl, hb⟩
    · have e1 : (d.more y).bytesToRead = 0 := h0
      have e2 : (d.more y).bytesToReceive = d.bytesToReceive := rfl
      rw [e1, e2, h0]
      simp only [gt_iff_lt, Nat.lt_irrefl, if_false]
      split <;> rfl
    · obtain ⟨k1, k2⟩ := Dev.more_receive hs y hl hb
      rw [k1]
      dsimp only
      rw [k2]
      refine Dev.more_ite (fun _ => ?_) (fun _ => ?_)
      · early
      · refine Dev.more_ite (fun _ => rfl) (fun _ => rfl)
  case ipUnconnected =>
    rw [← hq]
    have e0 : (d.more y).disconnectPending = d.disconnectPending := rfl
    rw [e0]
    split
    · exact Dev.more_handleDisconnect ({ d with cs := .intermediate } : D) y .sendNetclose
    · exact Dev.more_handleConnect ({ d with cs := .intermediate } : D) y .sendCipopen
  case sendNetclose => rw [Dev.more_sendCommand h]; rfl
  case finalizeDisconnect => rfl

theorem more_sendNext (h : d.ser.sched = []) (y : List Byte) (ha : d.snd = .sendCiprxget2 → d.bytesToReceive = 0)
    (hr : d.snd = .receiving → Dev.Takes d y) : sendNext (d.more y) = (sendNext d).more y := by
  unfold sendNext
  rw [Dev.more_sendCommand h, SimDev.more_sendIDRequest h]
  have e0 : (d.more y).rssi = d.rssi := rfl
  have e1 : (d.more y).lineRead = d.lineRead := rfl
  rw [e0, e1]
  dsimp only
  split
  · rfl
  · split
    · rfl
    · rename_i hf
      obtain ⟨f1, f2, f3, f4⟩ := SimDev.sendIDRequest_frame (d := d) iccidCommand (by simpa using hf)
      exact more_act (SimDev.sched_sendIDRequest h _) y (by rw [f1, f2]; exact ha) (by rw [f1]; exact fun e => (hr e).congr f4 f3)

theorem more_proceed (h : d.ser.sched = []) (y : List Byte) (ha : d.snd = .sendCiprxget2 → d.bytesToReceive = 0)
    (hr : d.snd = .receiving → Dev.Takes d y) : proceed (d.more y) = (proceed d).more y := by
  unfold proceed
  rw [Dev.more_serSpace h, Dev.more_askSpace h]
  have e0 : (d.more y).wait = d.wait := rfl
  have e1 : (d.more y).rep = d.rep := rfl
  rw [e0, e1]
  split
  · rfl
  · split
    · rfl
    · exact more_sendNext (Dev.sched_askSpace h) y ha (fun e => (hr e).askSpace)

/-- A line that is complete is handled without regard to what is behind it, unless the next step is to ask for data or
to take a block. -/
theorem more_work (p : Platform) {rq : List Byte} {rx : Nat} (h : Ser.Still d.ser rq rx) (y : List Byte)
    (hl : rq.length + y.length ≤ rx) (hf : d.fillLineBuffer.2 = true)
    (ha : (parseLine p d.fillLineBuffer.1).1.snd = .sendCiprxget2 → (parseLine p d.fillLineBuffer.1).1.bytesToReceive = 0)
    (hr : (parseLine p d.fillLineBuffer.1).1.snd = .receiving → Dev.Takes (parseLine p d.fillLineBuffer.1).1 y) :
    work p (d.more y) = (work p d).more y := by
  obtain ⟨e, rq', k, _⟩ := Dev.more_fillLine (SimDev.lineStop d.rep) h y hl hf
  have e' : SimDev.fillLineBuffer (d.more y) = (d.fillLineBuffer.1.more y, true) := e
  have hs : (parseLine p d.fillLineBuffer.1).1.ser.sched = [] := by
    rw [parseLine_ser]; exact k.sched
  unfold work
  dsimp only
  rw [e', hf]
  simp only [if_true]
  rw [more_parseLine]
  dsimp only
  split
  · rfl
  · exact more_proceed hs y ha hr

end Sim7x00

namespace Sim800

variable {d : D}

theorem more_parseReply (p : Platform) (d : D) (y : List Byte) :
    parseReply p (d.more y) = (parseReply p d).more y := by
  unfold parseReply
  rw [SimDev.more_parseDnsReply, SimDev.more_parseCiprxget4, SimDev.more_parseCiprxget2, SimDev.more_parseCsq,
    SimDev.more_parseIDReply, Dev.more_handleDisconnect]
  have e : (d.more y).rep = d.rep := rfl
  rw [e]
  cases d.rep <;> dsimp only
  case csq =>
    have e1 : (if (SimDev.parseCsq p d).2 = true then
          ({ (SimDev.parseCsq p d).1.more y with rep := .okReply } : D) else (SimDev.parseCsq p d).1.more y) =
        (if (SimDev.parseCsq p d).2 = true then ({ (SimDev.parseCsq p d).1 with rep := .okReply } : D)
          else (SimDev.parseCsq p d).1).more y := by early
    rw [e1, SimDev.more_parseIDReply]
    early
  all_goals early

theorem more_checkState (d : D) (y : List Byte) : checkState (d.more y) = (checkState d).more y := by
  unfold checkState
  rw [SimDev.more_checkConnectionState]
  early

theorem more_parseLine (p : Platform) (d : D) (y : List Byte) :
    parseLine p (d.more y) = ((parseLine p d).1.more y, (parseLine p d).2) := by
  have e : parseWait (d.more y) = (parseWait d).more y := by unfold parseWait; early
  unfold parseLine
  rw [e, more_parseReply, more_checkState]
  early

theorem more_act (h : d.ser.sched = []) (y : List Byte) (ha : d.snd = .sendCiprxget2 → d.bytesToReceive = 0)
    (hr : d.snd = .receiving → Dev.Takes d y) : act (d.more y) = (act d).more y := by
  unfold act
  have e : (d.more y).snd = d.snd := rfl
  rw [e]
  cases hq : d.snd <;> dsimp only
  case notConnected => rw [← hq]; exact Dev.more_handleConnect ({ d with delay := 10, cs := .notConnected } : D) y .connecting
  case connecting => rw [Dev.more_sendCommand h]; rfl
  case sendCiprxget => rw [Dev.more_sendCommand h]; rfl
  case sendCipmux => rw [Dev.more_sendCommand h]; rfl
  case sendCstt =>
    unfold actCstt
    have e0 : (d.more y).ext = d.ext := rfl
    rw [e0]
    have key : ∀ e : D, e.ser.sched = [] → ((({ (((e.more y).cmdN b!"AT+CSTT=\"").arg (e.ext.apn.getD [])).arg quoteEnd with
        wait := some okStr, snd := .sendCiicr }) : D)) =
        ({ ((e.cmdN b!"AT+CSTT=\"").arg (e.ext.apn.getD [])).arg quoteEnd with
        wait := some okStr, snd := .sendCiicr } : D).more y := by
      intro e he
      rw [Dev.more_cmdN he, Dev.more_arg (Dev.sched_cmdN he _), Dev.more_arg (Dev.sched_arg (Dev.sched_cmdN he _) _)]; rfl
    dsimp only
    split
    · exact key { d with ub := true } h
    · exact key d h
  case sendCiicr => rw [Dev.more_sendCommand h]; rfl
  case sendCifsr =>
    rw [Dev.more_handleDisconnect, Dev.more_cmdN h, Dev.more_arg (Dev.sched_cmdN h _)]
    early
  case sendDnsQuery =>
    rw [SimDev.more_sendDnsQuery h]
    dsimp only
    split <;> rfl
  case sendCipstart =>
    unfold actCipstart
    rw [Dev.more_cmd h]
    have h1 := Dev.sched_cmd h b!"AT+CIPSTART"
    generalize d.cmd b!"AT+CIPSTART" = d1 at h1
    dsimp only
    have e1 : (d1.more y).typ = d1.typ := rfl
    rw [e1, Dev.more_arg h1, Dev.more_arg h1]
    have h2 := Dev.sched_arg h1 b!"=0,\"UDP\",\""
    have h3 := Dev.sched_arg h1 b!"=0,\"TCP\",\""
    generalize d1.arg b!"=0,\"UDP\",\"" = d2 at h2
    generalize d1.arg b!"=0,\"TCP\",\"" = d3 at h3
    have key : ∀ e : D, e.ser.sched = [] →
        ({ ((((e.more y).arg (cstr (e.more y).ext.ip.cells)).arg b!"\",").arg (dec5 (e.more y).port)).arg lineEnd with
          rep := .cipstart, wait := some b!"0, CONNECT OK", snd := .finalizeConnect } : D) =
        ({ (((e.arg (cstr e.ext.ip.cells)).arg b!"\",").arg (dec5 e.port)).arg lineEnd with
          rep := .cipstart, wait := some b!"0, CONNECT OK", snd := .finalizeConnect } : D).more y := by
      intro e he
      have f1 : (e.more y).ext = e.ext := rfl
      have f2 : (e.more y).port = e.port := rfl
      rw [f1, f2, Dev.more_arg he, Dev.more_arg (Dev.sched_arg he _), Dev.more_arg (Dev.sched_arg (Dev.sched_arg he _) _),
        Dev.more_arg (Dev.sched_arg (Dev.sched_arg (Dev.sched_arg he _) _) _)]; rfl
    split
    · exact key d2 h2
    · exact key d3 h3
  case finalizeConnect => rfl
  case connected =>
    unfold actConnected
    rw [Dev.more_prepareSending h]
    have h1 := Dev.sched_prepareSending h true
    generalize d.prepareSending true = r at h1
    dsimp only
    rw [Dev.more_arg h1]
    refine Dev.more_ite (fun _ => ?_) (fun _ => ?_)
    · early
    · refine Dev.more_ite (fun _ => rfl) (fun _ => ?_)
      refine Dev.more_ite (fun _ => ?_) (fun _ => rfl)
      exact Dev.more_handleDisconnect ({ d with cs := .connected } : D) y .sendCipclose
  case sendData => rw [← Dev.more_sendData h]; rfl
  case sendCiprxget4 => rw [Dev.more_sendCommand h]; rfl
  case sendCiprxget2 =>
    unfold actCiprxget2
    have e0 : (d.more y).disconnectPending = d.disconnectPending := rfl
    have e1 : (d.more y).bytesToReceive = 0 := ha hq
    have e2 : (d.more y).ipConnected = d.ipConnected := rfl
    rw [e0, e1, e2, ha hq, Dev.more_handleDisconnect]
    simp only [gt_iff_lt, Nat.lt_irrefl, if_false]
    split
    · rfl
    · split <;> rfl
  case receiving =>
    unfold actReceiving
    rcases hr hq with h0 | ⟨rq, rx, hs, hl, hb⟩
    · have e1 : (d.more y).bytesToRead = 0 := h0
      have e2 : (d.more y).bytesToReceive = d.bytesToReceive := rfl
      rw [e1, e2, h0]
      simp only [gt_iff_lt, Nat.lt_irrefl, if_false]
      split <;> rfl
    · obtain ⟨k1, k2⟩ := Dev.more_receive hs y hl hb
      rw [k1]
      dsimp only
      rw [k2]
      refine Dev.more_ite (fun _ => ?_) (fun _ => ?_)
      · early
      · refine Dev.more_ite (fun _ => rfl) (fun _ => rfl)
  case ipUnconnected =>
    rw [← hq]
    have e0 : (d.more y).disconnectPending = d.disconnectPending := rfl
    rw [e0]
    split
    · exact Dev.more_handleDisconnect ({ d with cs := .intermediate } : D) y .finalizeDisconnect
    · exact Dev.more_handleConnect ({ d with cs := .intermediate } : D) y .sendCipstart
  case sendCipclose =>
    rw [Dev.more_sendCommand h]
    early
  case sendCipshut => rw [Dev.more_sendCommand h]; rfl
  case finalizeDisconnect => rfl

theorem more_sendNext (h : d.ser.sched = []) (y : List Byte) (ha : d.snd = .sendCiprxget2 → d.bytesToReceive = 0)
    (hr : d.snd = .receiving → Dev.Takes d y) : sendNext (d.more y) = (sendNext d).more y := by
  unfold sendNext
  rw [Dev.more_sendCommand h, SimDev.more_sendIDRequest h]
  have e0 : (d.more y).rssi = d.rssi := rfl
  have e1 : (d.more y).lineRead = d.lineRead := rfl
  rw [e0, e1]
  dsimp only
  split
  · rfl
  · split
    · rfl
    · rename_i hf
      obtain ⟨f1, f2, f3, f4⟩ := SimDev.sendIDRequest_frame (d := d) iccidCommand (by simpa using hf)
      exact more_act (SimDev.sched_sendIDRequest h _) y (by rw [f1, f2]; exact ha) (by rw [f1]; exact fun e => (hr e).congr f4 f3)

theorem more_proceed (h : d.ser.sched = []) (y : List Byte) (ha : d.snd = .sendCiprxget2 → d.bytesToReceive = 0)
    (hr : d.snd = .receiving → Dev.Takes d y) : proceed (d.more y) = (proceed d).more y := by
  unfold proceed
  rw [Dev.more_serSpace h, Dev.more_askSpace h]
  have e0 : (d.more y).wait = d.wait := rfl
  have e1 : (d.more y).rep = d.rep := rfl
  rw [e0, e1]
  split
  · rfl
  · split
    · rfl
    · exact more_sendNext (Dev.sched_askSpace h) y ha (fun e => (hr e).askSpace)

/-- A line that is complete is handled without regard to what is behind it, unless the next step is to ask for data or
to take a block. -/
theorem more_work (p : Platform) {rq : List Byte} {rx : Nat} (h : Ser.Still d.ser rq rx) (y : List Byte)
    (hl : rq.length + y.length ≤ rx) (hf : d.fillLineBuffer.2 = true)
    (ha : (parseLine p d.fillLineBuffer.1).1.snd = .sendCiprxget2 → (parseLine p d.fillLineBuffer.1).1.bytesToReceive = 0)
    (hr : (parseLine p d.fillLineBuffer.1).1.snd = .receiving → Dev.Takes (parseLine p d.fillLineBuffer.1).1 y) :
    work p (d.more y) = (work p d).more y := by
  obtain ⟨e, rq', k, _⟩ := Dev.more_fillLine (SimDev.lineStop d.rep) h y hl hf
  have e' : SimDev.fillLineBuffer (d.more y) = (d.fillLineBuffer.1.more y, true) := e
  have hs : (parseLine p d.fillLineBuffer.1).1.ser.sched = [] := by
    rw [parseLine_ser]; exact k.sched
  unfold work
  dsimp only
  rw [e', hf]
  simp only [if_true]
  rw [more_parseLine]
  dsimp only
  split
  · rfl
  · exact more_proceed hs y ha hr

end Sim800
end Verif
