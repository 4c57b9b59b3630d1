import Verif.Lemmas.Says

/-! The state machines of the drivers as tables: what a turn may say and the next states. -/

namespace Verif

open Dev Spec

namespace Sim7x00

/-- Possible turns. -/
def moves (d : D) : List (Kind × Snd × Rep) :=
  match d.snd with
  | .notConnected =>
    [(.quiet, .notConnected, .okReply),
     (.quiet, .connecting, .okReply)]
  | .connecting =>
    [(.cmd b!"ATE0" (b!"ATE0" ++ lineEnd), .sendCgsockcont, .okReply)]
  | .sendCgsockcont =>
    [(.cmd b!"AT+CGSOCKCONT=1,\"IP\",\"" (b!"AT+CGSOCKCONT=1,\"IP\",\"" ++ d.ext.apn.getD [] ++ quoteEnd), .sendCsocksetpn, .okReply)]
  | .sendCsocksetpn =>
    [(.cmd b!"AT+CSOCKSETPN=1" (b!"AT+CSOCKSETPN=1" ++ lineEnd), .sendCipmode, .okReply)]
  | .sendCipmode =>
    [(.cmd b!"AT+CIPMODE=0" (b!"AT+CIPMODE=0" ++ lineEnd), .sendNetopen, .okReply)]
  | .sendNetopen =>
    [(.cmd b!"AT+NETOPEN" (b!"AT+NETOPEN" ++ lineEnd), .sendCiprxget, .netopen),
     (.quiet, .finalizeDisconnect, .okReply)]
  | .sendCiprxget =>
    [(.cmd b!"AT+CIPRXGET=1" (b!"AT+CIPRXGET=1" ++ lineEnd), .sendDnsQuery, .okReply)]
  | .sendDnsQuery =>
    [(.cmd b!"AT+CDNSGIP=\"" (b!"AT+CDNSGIP=\"" ++ d.host.getD [] ++ quoteEnd), .sendCipopen, .cdnsgip),
     (.quiet, .sendDnsQuery, .okReply)]
  | .sendCipopen =>
    [(.cmd b!"AT+CIPOPEN" (if d.typ = .udp then b!"AT+CIPOPEN" ++ b!"=0,\"UDP\",,," ++ dec5 d.port ++ lineEnd
      else b!"AT+CIPOPEN" ++ b!"=0,\"TCP\",\"" ++ cstr d.ext.ip.cells ++ b!"\"," ++ dec5 d.port ++ lineEnd), .finalizeConnect, .cipopen)]
  | .finalizeConnect =>
    [(.quiet, .connected, .okReply)]
  | .connected =>
    [(.cmd b!"AT+CIPSEND=" (if d.typ = .udp then b!"AT+CIPSEND=" ++ b!"0," ++ dec5 d.sendAmount ++ b!",\"" ++ cstr d.ext.ip.cells ++
        b!"\"," ++ dec5 d.port ++ lineEnd
      else b!"AT+CIPSEND=" ++ b!"0," ++ dec5 d.sendAmount ++ lineEnd), .sendData, .okReply),
     (.quiet, .connected, .okReply),
     (.quiet, .sendCiprxget4, .okReply),
     (.quiet, .sendNetclose, .okReply)]
  | .sendData =>
    [(.pay, .connected, .okReply)]
  | .sendCiprxget4 =>
    [(.cmd b!"AT+CIPRXGET=4,0" (b!"AT+CIPRXGET=4,0" ++ lineEnd), .sendCiprxget2, .ciprxget4)]
  | .sendCiprxget2 =>
    [(.cmd b!"AT+CIPRXGET=2,0," (b!"AT+CIPRXGET=2,0," ++ dec d.askAmount ++ lineEnd), .waitReceive, .ciprxget2),
     (.quiet, .sendCiprxget2, .okReply),
     (.quiet, .connected, .okReply),
     (.quiet, .ipUnconnected, .okReply),
     (.quiet, .sendNetclose, .okReply)]
  | .waitReceive =>
    [(.quiet, .waitReceive, .okReply)]
  | .receiving =>
    [(.data, .receiving, .okReply),
     (.quiet, .receiving, .okReply),
     (.quiet, .sendCiprxget2, .okReply),
     (.quiet, .sendCiprxget4, .okReply)]
  | .ipUnconnected =>
    [(.quiet, .ipUnconnected, .okReply),
     (.quiet, .sendNetclose, .okReply),
     (.quiet, .sendCipopen, .okReply)]
  | .sendNetclose =>
    [(.cmd b!"AT+NETCLOSE" (b!"AT+NETCLOSE" ++ lineEnd), .finalizeDisconnect, .okReply)]
  | .finalizeDisconnect =>
    [(.quiet, .notConnected, .okReply)]
  | .serialError =>
    [(.quiet, .serialError, .okReply)]
  | .dnsError =>
    [(.quiet, .dnsError, .okReply)]

theorem act_moves {d : D} (hr : d.rep = .okReply) : Moves (moves d) d (act d) := by
  cases hsnd : d.snd
  case notConnected =>
    refine ⟨.quiet, ?_, says_quiet ?_⟩ <;> simp only [act, hsnd] <;>
      cases hk : d.connectPending <;> simp [handleConnect, hk, hsnd, moves, hr]
  case connecting =>
    have hs : Says (.cmd b!"ATE0" (b!"ATE0" ++ lineEnd)) d (act d) := by
      simp only [act, hsnd]
      exact (says_sendCommand d b!"ATE0").set rfl
    exact ⟨_, by simp [act, hsnd, moves, hr], hs⟩
  case sendCgsockcont =>
    have e : act d = actCgsockcont d := by simp only [act, hsnd]
    rw [e]
    have hs := fun d0 (h0 : d0.trace = d.trace) => (((says_cmdN d0 b!"AT+CGSOCKCONT=1,\"IP\",\"").argN (d.ext.apn.getD [])).arg quoteEnd).pre h0
    cases hh : d.ext.apn
    · refine ⟨_, ?_, (hs { d with ub := true } rfl).set ?_⟩ <;> simp [actCgsockcont, hh, moves, hsnd, hr]
    · refine ⟨_, ?_, (hs d rfl).set ?_⟩ <;> simp [actCgsockcont, hh, moves, hsnd, hr]
  case sendCsocksetpn =>
    have hs : Says (.cmd b!"AT+CSOCKSETPN=1" (b!"AT+CSOCKSETPN=1" ++ lineEnd)) d (act d) := by
      simp only [act, hsnd]
      exact (says_sendCommand d b!"AT+CSOCKSETPN=1").set rfl
    exact ⟨_, by simp [act, hsnd, moves, hr], hs⟩
  case sendCipmode =>
    have hs : Says (.cmd b!"AT+CIPMODE=0" (b!"AT+CIPMODE=0" ++ lineEnd)) d (act d) := by
      simp only [act, hsnd]
      exact (says_sendCommand d b!"AT+CIPMODE=0").set rfl
    exact ⟨_, by simp [act, hsnd, moves, hr], hs⟩
  case sendNetopen =>
    cases hd : d.disconnectPending
    · have hs : Says (.cmd b!"AT+NETOPEN" (b!"AT+NETOPEN" ++ lineEnd)) d (act d) := by
        simp only [act, hsnd, hd, Bool.false_eq_true, if_false, if_true]
        exact (says_sendCommand d _).set rfl
      exact ⟨_, by simp [act, hsnd, hd, moves, hr], hs⟩
    · refine ⟨.quiet, ?_, says_quiet ?_⟩ <;> simp [act, hsnd, hd, moves, hr, handleDisconnect]
  case sendCiprxget =>
    have hs : Says (.cmd b!"AT+CIPRXGET=1" (b!"AT+CIPRXGET=1" ++ lineEnd)) d (act d) := by
      simp only [act, hsnd]
      exact (says_sendCommand d b!"AT+CIPRXGET=1").set rfl
    exact ⟨_, by simp [act, hsnd, moves, hr], hs⟩
  case sendDnsQuery =>
    by_cases hq : d.sendDnsQuery.2 = true
    · have hs := says_sendDnsQuery hq
      refine ⟨_, ?_, hs.set ?_⟩ <;> simp [act, hsnd, hq, moves]
    · have := SimDev.sendDnsQuery_false (d := d) (by simpa using hq)
      refine ⟨.quiet, ?_, says_quiet ?_⟩ <;> simp only [act, hsnd, if_neg hq] <;> simp [this, hsnd, moves, hr]
  case sendCipopen =>
    have e : act d = actCipopen d := by simp only [act, hsnd]
    rw [e]
    unfold actCipopen
    by_cases hu : d.typ = .udp
    · dsimp only
      rw [if_pos (by simpa using hu)]
      exact ⟨_, by simp [moves, hsnd, hu], ((((says_cmd d _).arg _).arg _).arg _).set rfl⟩
    · dsimp only
      rw [if_neg (by simpa using hu)]
      exact ⟨_, by simp [moves, hsnd, hu], ((((((says_cmd d _).arg _).arg _).arg _).arg _).arg _).set rfl⟩
  case finalizeConnect =>
    refine ⟨.quiet, ?_, says_quiet ?_⟩ <;> simp [act, hsnd, moves, hr]
  case connected =>
    have e : act d = actConnected d := by simp only [act, hsnd]
    rw [e]
    unfold actConnected
    split
    · dsimp only
      by_cases hq : (d.prepareSending true).2 = true
      · rw [if_pos hq]
        by_cases hu : d.typ = .udp
        · rw [if_pos (by simpa using hu)]
          have e1 : (d.prepareSending true).1.ext = d.ext := by simp
          have e2 : (d.prepareSending true).1.port = d.port := by simp
          refine ⟨_, ?_, (((((((says_prepare hq).arg _).arg _).arg _).arg _)).arg lineEnd).set rfl⟩
          simp [moves, hsnd, hr, hu]
        · rw [if_neg (by simpa using hu)]
          refine ⟨_, ?_, ((says_prepare hq).arg lineEnd).set rfl⟩
          simp [moves, hsnd, hr, hu]
      · rw [if_neg hq]
        have := prepareSending_trace_false (by simpa using hq)
        refine ⟨.quiet, ?_, says_quiet this.1⟩
        simp [hsnd, hr, moves]
    · split
      · refine ⟨.quiet, ?_, says_quiet ?_⟩ <;> simp [moves, hsnd, hr]
      · cases hd : d.disconnectPending <;> refine ⟨.quiet, ?_, says_quiet ?_⟩ <;>
          simp [handleDisconnect, hd, hsnd, moves, hr]
  case sendData =>
    exact ⟨.pay, by simp [act, hsnd, moves, hr], _, by simp only [act, hsnd]; rfl⟩
  case sendCiprxget4 =>
    have hs : Says (.cmd b!"AT+CIPRXGET=4,0" (b!"AT+CIPRXGET=4,0" ++ lineEnd)) d (act d) := by
      simp only [act, hsnd]
      exact (says_sendCommand d b!"AT+CIPRXGET=4,0").set rfl
    exact ⟨_, by simp [act, hsnd, moves, hr], hs⟩
  case sendCiprxget2 =>
    have e : act d = actCiprxget2 d := by simp only [act, hsnd]
    rw [e]
    unfold actCiprxget2
    cases hd : d.disconnectPending
    · simp only [Bool.false_eq_true, if_false]
      split
      · by_cases hq : d.sendCiprxget2.2 = true
        · rw [if_pos hq]
          exact ⟨_, by simp only [moves, hsnd]; exact .head _, (says_sendCiprxget2 hq).set rfl⟩
        · rw [if_neg hq]
          have := SimDev.sendCiprxget2_false (d := d) (by simpa using hq)
          refine ⟨.quiet, ?_, says_quiet ?_⟩ <;> simp [this, hsnd, moves, hr]
      · split <;> refine ⟨.quiet, ?_, says_quiet ?_⟩ <;> simp [moves, hsnd, hr]
    · refine ⟨.quiet, ?_, says_quiet ?_⟩ <;> simp [handleDisconnect, hd, moves, hsnd, hr]
  case waitReceive =>
    have e : act d = d := by simp only [act, hsnd]
    rw [e]; exact ⟨.quiet, by simp [hsnd, hr, moves], rfl⟩
  case receiving =>
    have e : act d = actReceiving d := by simp only [act, hsnd]
    rw [e]
    unfold actReceiving
    split
    · dsimp only
      by_cases hq : d.receive.2 = true
      · rw [if_pos hq]
        exact ⟨.data, by simp [moves, hsnd], _, (receive_true hq).1⟩
      · rw [if_neg hq]
        have := receive_trace_false (d := d) (by simpa using hq)
        exact ⟨.quiet, by simp [moves, hsnd, hr], this.1⟩
    · split <;> refine ⟨.quiet, ?_, says_quiet ?_⟩ <;> simp [moves, hsnd, hr]
  case ipUnconnected =>
    cases hd : d.disconnectPending <;> cases hk : d.connectPending <;>
      refine ⟨.quiet, ?_, says_quiet ?_⟩ <;>
      simp [act, hsnd, hd, hk, handleConnect, handleDisconnect, moves, hr]
  case sendNetclose =>
    have hs : Says (.cmd b!"AT+NETCLOSE" (b!"AT+NETCLOSE" ++ lineEnd)) d (act d) := by
      simp only [act, hsnd]
      exact (says_sendCommand d b!"AT+NETCLOSE").set rfl
    exact ⟨_, by simp [act, hsnd, moves, hr], hs⟩
  case finalizeDisconnect =>
    refine ⟨.quiet, ?_, says_quiet ?_⟩ <;> simp [act, hsnd, moves, hr]
  case serialError =>
    have e : act d = d := by simp only [act, hsnd]
    rw [e]; exact ⟨.quiet, by simp [hsnd, hr, moves], rfl⟩
  case dnsError =>
    have e : act d = d := by simp only [act, hsnd]
    rw [e]; exact ⟨.quiet, by simp [hsnd, hr, moves], rfl⟩

end Sim7x00

namespace Sim800

/-- Possible turns. -/
def moves (d : D) : List (Kind × Snd × Rep) :=
  match d.snd with
  | .notConnected =>
    [(.quiet, .notConnected, .okReply),
     (.quiet, .connecting, .okReply)]
  | .connecting =>
    [(.cmd b!"ATE0" (b!"ATE0" ++ lineEnd), .sendCiprxget, .okReply)]
  | .sendCiprxget =>
    [(.cmd b!"AT+CIPRXGET=1" (b!"AT+CIPRXGET=1" ++ lineEnd), .sendCipmux, .okReply)]
  | .sendCipmux =>
    [(.cmd b!"AT+CIPMUX=1" (b!"AT+CIPMUX=1" ++ lineEnd), .sendCstt, .okReply)]
  | .sendCipsprt =>
    [(.quiet, .sendCipsprt, .okReply)]
  | .sendCstt =>
    [(.cmd b!"AT+CSTT=\"" (b!"AT+CSTT=\"" ++ d.ext.apn.getD [] ++ quoteEnd), .sendCiicr, .okReply)]
  | .sendCiicr =>
    [(.cmd b!"AT+CIICR" (b!"AT+CIICR" ++ lineEnd), .sendCifsr, .okReply)]
  | .sendCifsr =>
    [(.cmd b!"AT+CIFSR" (b!"AT+CIFSR" ++ lineEnd), .sendDnsQuery, .cifsr),
     (.quiet, .sendCipshut, .okReply)]
  | .sendDnsQuery =>
    [(.cmd b!"AT+CDNSGIP=\"" (b!"AT+CDNSGIP=\"" ++ d.host.getD [] ++ quoteEnd), .sendCipstart, .cdnsgip),
     (.quiet, .sendDnsQuery, .okReply)]
  | .sendCipstart =>
    [(.cmd b!"AT+CIPSTART" (b!"AT+CIPSTART" ++ (if d.typ = .udp then b!"=0,\"UDP\",\"" else b!"=0,\"TCP\",\"") ++
      cstr d.ext.ip.cells ++ b!"\"," ++ dec5 d.port ++ lineEnd), .finalizeConnect, .cipstart)]
  | .finalizeConnect =>
    [(.quiet, .connected, .okReply)]
  | .connected =>
    [(.cmd b!"AT+CIPSEND=" (b!"AT+CIPSEND=" ++ b!"0," ++ dec5 d.sendAmount ++ lineEnd), .sendData, .okReply),
     (.quiet, .connected, .okReply),
     (.quiet, .sendCiprxget4, .okReply),
     (.quiet, .sendCipclose, .okReply),
     (.quiet, .sendCipshut, .okReply)]
  | .sendData =>
    [(.pay, .connected, .okReply)]
  | .sendCiprxget4 =>
    [(.cmd b!"AT+CIPRXGET=4,0" (b!"AT+CIPRXGET=4,0" ++ lineEnd), .sendCiprxget2, .ciprxget4)]
  | .sendCiprxget2 =>
    [(.cmd b!"AT+CIPRXGET=2,0," (b!"AT+CIPRXGET=2,0," ++ dec d.askAmount ++ lineEnd), .waitReceive, .ciprxget2),
     (.quiet, .sendCiprxget2, .okReply),
     (.quiet, .connected, .okReply),
     (.quiet, .ipUnconnected, .okReply),
     (.quiet, .sendCipclose, .okReply)]
  | .waitReceive =>
    [(.quiet, .waitReceive, .okReply)]
  | .receiving =>
    [(.data, .receiving, .okReply),
     (.quiet, .receiving, .okReply),
     (.quiet, .sendCiprxget2, .okReply),
     (.quiet, .sendCiprxget4, .okReply)]
  | .ipUnconnected =>
    [(.quiet, .ipUnconnected, .okReply),
     (.quiet, .finalizeDisconnect, .okReply),
     (.quiet, .sendCipstart, .okReply)]
  | .sendCipclose =>
    [(.cmd b!"AT+CIPCLOSE=0" (b!"AT+CIPCLOSE=0" ++ lineEnd), .sendCipshut, .okReply),
     (.quiet, .sendCipshut, .okReply)]
  | .sendCipshut =>
    [(.cmd b!"AT+CIPSHUT" (b!"AT+CIPSHUT" ++ lineEnd), .finalizeDisconnect, .okReply)]
  | .finalizeDisconnect =>
    [(.quiet, .notConnected, .okReply)]
  | .serialError =>
    [(.quiet, .serialError, .okReply)]

theorem act_moves {d : D} (hr : d.rep = .okReply) : Moves (moves d) d (act d) := by
  cases hsnd : d.snd
  case notConnected =>
    refine ⟨.quiet, ?_, says_quiet ?_⟩ <;> simp only [act, hsnd] <;>
      cases hk : d.connectPending <;> simp [handleConnect, hk, hsnd, moves, hr]
  case connecting =>
    have hs : Says (.cmd b!"ATE0" (b!"ATE0" ++ lineEnd)) d (act d) := by
      simp only [act, hsnd]
      exact (says_sendCommand d b!"ATE0").set rfl
    exact ⟨_, by simp [act, hsnd, moves, hr], hs⟩
  case sendCiprxget =>
    have hs : Says (.cmd b!"AT+CIPRXGET=1" (b!"AT+CIPRXGET=1" ++ lineEnd)) d (act d) := by
      simp only [act, hsnd]
      exact (says_sendCommand d b!"AT+CIPRXGET=1").set rfl
    exact ⟨_, by simp [act, hsnd, moves, hr], hs⟩
  case sendCipmux =>
    have hs : Says (.cmd b!"AT+CIPMUX=1" (b!"AT+CIPMUX=1" ++ lineEnd)) d (act d) := by
      simp only [act, hsnd]
      exact (says_sendCommand d b!"AT+CIPMUX=1").set rfl
    exact ⟨_, by simp [act, hsnd, moves, hr], hs⟩
  case sendCipsprt =>
    have e : act d = d := by simp only [act, hsnd]
    rw [e]; exact ⟨.quiet, by simp [hsnd, hr, moves], rfl⟩
  case sendCstt =>
    have e : act d = actCstt d := by simp only [act, hsnd]
    rw [e]
    have hs := fun d0 (h0 : d0.trace = d.trace) => (((says_cmdN d0 b!"AT+CSTT=\"").arg (d.ext.apn.getD [])).arg quoteEnd).pre h0
    cases hh : d.ext.apn
    · refine ⟨_, ?_, (hs { d with ub := true } rfl).set ?_⟩ <;> simp [actCstt, hh, moves, hsnd, hr]
    · refine ⟨_, ?_, (hs d rfl).set ?_⟩ <;> simp [actCstt, hh, moves, hsnd, hr]
  case sendCiicr =>
    have hs : Says (.cmd b!"AT+CIICR" (b!"AT+CIICR" ++ lineEnd)) d (act d) := by
      simp only [act, hsnd]
      exact (says_sendCommand d b!"AT+CIICR").set rfl
    exact ⟨_, by simp [act, hsnd, moves, hr], hs⟩
  case sendCifsr =>
    cases hd : d.disconnectPending
    · have hs : Says (.cmd b!"AT+CIFSR" (b!"AT+CIFSR" ++ lineEnd)) d (act d) := by
        simp only [act, hsnd, hd, Bool.false_eq_true, if_false, if_true]
        exact ((says_cmdN d _).arg _).set rfl
      exact ⟨_, by simp [act, hsnd, hd, moves, hr], hs⟩
    · refine ⟨.quiet, ?_, says_quiet ?_⟩ <;> simp [act, hsnd, hd, moves, hr, handleDisconnect]
  case sendDnsQuery =>
    by_cases hq : d.sendDnsQuery.2 = true
    · have hs := says_sendDnsQuery hq
      refine ⟨_, ?_, hs.set ?_⟩ <;> simp [act, hsnd, hq, moves]
    · have := SimDev.sendDnsQuery_false (d := d) (by simpa using hq)
      refine ⟨.quiet, ?_, says_quiet ?_⟩ <;> simp only [act, hsnd, if_neg hq] <;> simp [this, hsnd, moves, hr]
  case sendCipstart =>
    have e : act d = actCipstart d := by simp only [act, hsnd]
    rw [e]
    unfold actCipstart
    by_cases hu : d.typ = .udp
    · dsimp only
      rw [if_pos (by simpa using hu)]
      exact ⟨_, by simp [moves, hsnd, hu], ((((((says_cmd d _).arg _).arg _).arg _).arg _).arg _).set rfl⟩
    · dsimp only
      rw [if_neg (by simpa using hu)]
      exact ⟨_, by simp [moves, hsnd, hu], ((((((says_cmd d _).arg _).arg _).arg _).arg _).arg _).set rfl⟩
  case finalizeConnect =>
    refine ⟨.quiet, ?_, says_quiet ?_⟩ <;> simp [act, hsnd, moves, hr]
  case connected =>
    have e : act d = actConnected d := by simp only [act, hsnd]
    rw [e]
    unfold actConnected
    split
    · dsimp only
      by_cases hq : (d.prepareSending true).2 = true
      · rw [if_pos hq]
        refine ⟨_, ?_, ((says_prepare hq).arg lineEnd).set rfl⟩
        simp [moves, hsnd, hr]
      · rw [if_neg hq]
        have := prepareSending_trace_false (by simpa using hq)
        refine ⟨.quiet, ?_, says_quiet this.1⟩
        simp [hsnd, hr, moves]
    · split
      · refine ⟨.quiet, ?_, says_quiet ?_⟩ <;> simp [moves, hsnd, hr]
      · cases hi : d.ipConnected <;> cases hd : d.disconnectPending <;> refine ⟨.quiet, ?_, says_quiet ?_⟩ <;>
          simp [handleDisconnect, hd, hsnd, moves, hr]
  case sendData =>
    exact ⟨.pay, by simp [act, hsnd, moves, hr], _, by simp only [act, hsnd]; rfl⟩
  case sendCiprxget4 =>
    have hs : Says (.cmd b!"AT+CIPRXGET=4,0" (b!"AT+CIPRXGET=4,0" ++ lineEnd)) d (act d) := by
      simp only [act, hsnd]
      exact (says_sendCommand d b!"AT+CIPRXGET=4,0").set rfl
    exact ⟨_, by simp [act, hsnd, moves, hr], hs⟩
  case sendCiprxget2 =>
    have e : act d = actCiprxget2 d := by simp only [act, hsnd]
    rw [e]
    unfold actCiprxget2
    cases hd : d.disconnectPending
    · simp only [Bool.false_eq_true, if_false]
      split
      · by_cases hq : d.sendCiprxget2.2 = true
        · rw [if_pos hq]
          exact ⟨_, by simp only [moves, hsnd]; exact .head _, (says_sendCiprxget2 hq).set rfl⟩
        · rw [if_neg hq]
          have := SimDev.sendCiprxget2_false (d := d) (by simpa using hq)
          refine ⟨.quiet, ?_, says_quiet ?_⟩ <;> simp [this, hsnd, moves, hr]
      · split <;> refine ⟨.quiet, ?_, says_quiet ?_⟩ <;> simp [moves, hsnd, hr]
    · refine ⟨.quiet, ?_, says_quiet ?_⟩ <;> simp [handleDisconnect, hd, moves, hsnd, hr]
  case waitReceive =>
    have e : act d = d := by simp only [act, hsnd]
    rw [e]; exact ⟨.quiet, by simp [hsnd, hr, moves], rfl⟩
  case receiving =>
    have e : act d = actReceiving d := by simp only [act, hsnd]
    rw [e]
    unfold actReceiving
    split
    · dsimp only
      by_cases hq : d.receive.2 = true
      · rw [if_pos hq]
        exact ⟨.data, by simp [moves, hsnd], _, (receive_true hq).1⟩
      · rw [if_neg hq]
        have := receive_trace_false (d := d) (by simpa using hq)
        exact ⟨.quiet, by simp [moves, hsnd, hr], this.1⟩
    · split <;> refine ⟨.quiet, ?_, says_quiet ?_⟩ <;> simp [moves, hsnd, hr]
  case ipUnconnected =>
    cases hd : d.disconnectPending <;> cases hk : d.connectPending <;>
      refine ⟨.quiet, ?_, says_quiet ?_⟩ <;>
      simp [act, hsnd, hd, hk, handleConnect, handleDisconnect, moves, hr]
  case sendCipclose =>
    cases hd : d.ipConnected
    · refine ⟨.quiet, ?_, says_quiet ?_⟩ <;> simp [act, hsnd, hd, moves, hr, handleDisconnect]
    · have hs : Says (.cmd b!"AT+CIPCLOSE=0" (b!"AT+CIPCLOSE=0" ++ lineEnd)) d (act d) := by
        simp only [act, hsnd, hd, Bool.false_eq_true, if_false, if_true]
        exact (says_sendCommand d _).set rfl
      exact ⟨_, by simp [act, hsnd, hd, moves, hr], hs⟩
  case sendCipshut =>
    have hs : Says (.cmd b!"AT+CIPSHUT" (b!"AT+CIPSHUT" ++ lineEnd)) d (act d) := by
      simp only [act, hsnd]
      exact (says_sendCommand d b!"AT+CIPSHUT").set rfl
    exact ⟨_, by simp [act, hsnd, moves, hr], hs⟩
  case finalizeDisconnect =>
    refine ⟨.quiet, ?_, says_quiet ?_⟩ <;> simp [act, hsnd, moves, hr]
  case serialError =>
    have e : act d = d := by simp only [act, hsnd]
    rw [e]; exact ⟨.quiet, by simp [hsnd, hr, moves], rfl⟩

end Sim800

namespace Espressif

theorem says_sendCiprcvdata {d : D} (h : (sendCiprcvdata d).2 = true) :
    Says (.cmd b!"AT+CIPRECVDATA=" (b!"AT+CIPRECVDATA=" ++ dec (askAmount d) ++ lineEnd)) d (sendCiprcvdata d).1 := by
  obtain ⟨g1, g2, g3, ht⟩ := sendCiprcvdata_true h
  exact ⟨g1, [.arg (dec (askAmount d)) g2, .arg lineEnd g3], by rw [ht]; simp, rfl, by simp [args]⟩

/-- Possible turns. -/
def moves (d : D) : List (Kind × Snd × Rep) :=
  match d.snd with
  | .notConnected =>
    [(.quiet, .notConnected, .okReply),
     (.quiet, .connecting, .okReply)]
  | .connecting =>
    [(.cmd b!"ATE0" (b!"ATE0" ++ lineEnd), .sendCwmode, .okReply)]
  | .sendCwmode =>
    [(.cmd b!"AT+CWMODE=1" (b!"AT+CWMODE=1" ++ lineEnd), .sendCwjap, .okReply)]
  | .sendCwjap =>
    [(.cmd b!"AT+CWJAP=\"" (b!"AT+CWJAP=\"" ++ d.ext.ssid.val ++ b!"\",\"" ++ d.ext.passwd.val ++ quoteEnd), .sendCipmux, .okReply)]
  | .sendCipmux =>
    [(.cmd b!"AT+CIPMUX=0" (b!"AT+CIPMUX=0" ++ lineEnd), .sendCiprecvmode, .okReply)]
  | .sendCiprecvmode =>
    [(.cmd (if d.typ = .tcp then b!"AT+CIPRECVMODE=1" else b!"AT+CIPRECVMODE=0")
      ((if d.typ = .tcp then b!"AT+CIPRECVMODE=1" else b!"AT+CIPRECVMODE=0") ++ lineEnd), .sendCipmode, .okReply)]
  | .sendCipmode =>
    [(.cmd b!"AT+CIPMODE=0" (b!"AT+CIPMODE=0" ++ lineEnd), .sendCipstart, .okReply)]
  | .sendCipstart =>
    [(.cmd b!"AT+CIPSTART" (b!"AT+CIPSTART" ++ protoStr d.typ ++ d.host.getD [] ++ b!"\"," ++ dec5 d.port ++ lineEnd), .finalizeConnect, .okReply)]
  | .finalizeConnect =>
    [(.quiet, .connected, .okReply)]
  | .connected =>
    [(.cmd b!"AT+CIPSEND=" (b!"AT+CIPSEND=" ++ ([] : List Byte) ++ dec5 d.sendAmount ++ lineEnd), .sendDataState, .okReply),
     (.quiet, .connected, .okReply),
     (.quiet, .sendCiprecvdata, .okReply),
     (.quiet, .receiving, .okReply),
     (.quiet, .sendCipclose, .okReply),
     (.quiet, .sendCwqap, .okReply)]
  | .sendDataState =>
    [(.pay, .connected, .okReply)]
  | .sendCiprecvdata =>
    [(.cmd b!"AT+CIPRECVDATA=" (b!"AT+CIPRECVDATA=" ++ dec (askAmount d) ++ lineEnd), .waitReceive, .waitCiprecvdata),
     (.quiet, .sendCiprecvdata, .okReply),
     (.quiet, .connected, .okReply),
     (.quiet, .sendCipclose, .okReply)]
  | .waitReceive =>
    [(.quiet, .waitReceive, .okReply)]
  | .receiving =>
    [(.data, .receiving, .okReply),
     (.quiet, .receiving, .okReply),
     (.quiet, .sendCiprecvdata, .okReply),
     (.quiet, .connected, .okReply)]
  | .sendCipclose =>
    [(.cmd b!"AT+CIPCLOSE" (b!"AT+CIPCLOSE" ++ lineEnd), .sendCwqap, .okReply),
     (.quiet, .sendCwqap, .okReply)]
  | .sendCwqap =>
    [(.cmd b!"AT+CWQAP" (b!"AT+CWQAP" ++ lineEnd), .finalizeDisconnect, .okReply)]
  | .finalizeDisconnect =>
    [(.quiet, .notConnected, .okReply)]
  | .serialError =>
    [(.quiet, .serialError, .okReply)]

theorem act_moves {d : D} (hr : d.rep = .okReply) : Moves (moves d) d (act d) := by
  cases hsnd : d.snd
  case notConnected =>
    refine ⟨.quiet, ?_, says_quiet ?_⟩ <;> simp only [act, hsnd] <;>
      cases hk : d.connectPending <;> simp [handleConnect, hk, hsnd, moves, hr]
  case connecting =>
    have hs : Says (.cmd b!"ATE0" (b!"ATE0" ++ lineEnd)) d (act d) := by
      simp only [act, hsnd]
      exact (says_sendCommand d b!"ATE0").set rfl
    exact ⟨_, by simp [act, hsnd, moves, hr], hs⟩
  case sendCwmode =>
    have hs : Says (.cmd b!"AT+CWMODE=1" (b!"AT+CWMODE=1" ++ lineEnd)) d (act d) := by
      simp only [act, hsnd]
      exact ((says_cmd d b!"AT+CWMODE=1").arg lineEnd).set rfl
    exact ⟨_, by simp [act, hsnd, moves, hr], hs⟩
  case sendCwjap =>
    have e : act d = actCwjap d := by simp only [act, hsnd]
    rw [e]
    unfold actCwjap
    exact ⟨_, by simp [moves, hsnd, hr], (((((says_cmd d _).argN _).arg _).argN _).arg _).set rfl⟩
  case sendCipmux =>
    have hs : Says (.cmd b!"AT+CIPMUX=0" (b!"AT+CIPMUX=0" ++ lineEnd)) d (act d) := by
      simp only [act, hsnd]
      exact (says_sendCommand d b!"AT+CIPMUX=0").set rfl
    exact ⟨_, by simp [act, hsnd, moves, hr], hs⟩
  case sendCiprecvmode =>
    have hs : Says (.cmd (if d.typ = .tcp then b!"AT+CIPRECVMODE=1" else b!"AT+CIPRECVMODE=0")
      ((if d.typ = .tcp then b!"AT+CIPRECVMODE=1" else b!"AT+CIPRECVMODE=0") ++ lineEnd)) d (act d) := by
      simp only [act, hsnd]
      exact (says_sendCommand d _).set rfl
    exact ⟨_, by simp [act, hsnd, moves, hr], hs⟩
  case sendCipmode =>
    have hs : Says (.cmd b!"AT+CIPMODE=0" (b!"AT+CIPMODE=0" ++ lineEnd)) d (act d) := by
      simp only [act, hsnd]
      exact (says_sendCommand d b!"AT+CIPMODE=0").set rfl
    exact ⟨_, by simp [act, hsnd, moves, hr], hs⟩
  case sendCipstart =>
    have e : act d = actCipstart d := by simp only [act, hsnd]
    rw [e]
    have hs := fun d0 (h0 : d0.trace = d.trace) => ((((((says_cmd d0 b!"AT+CIPSTART").arg (protoStr d.typ)).arg (d.host.getD [])).arg
      b!"\",").arg (dec5 d.port)).arg lineEnd).pre h0
    cases hh : d.host
    · refine ⟨_, ?_, (hs { d with ub := true } rfl).set ?_⟩ <;> simp [actCipstart, hh, moves, hsnd, hr]
    · refine ⟨_, ?_, (hs d rfl).set ?_⟩ <;> simp [actCipstart, hh, moves, hsnd, hr]
  case finalizeConnect =>
    refine ⟨.quiet, ?_, says_quiet ?_⟩ <;> simp [act, hsnd, moves, hr]
  case connected =>
    have e : act d = actConnected d := by simp only [act, hsnd]
    rw [e]
    unfold actConnected
    split
    · dsimp only
      by_cases hq : (d.prepareSending false).2 = true
      · rw [if_pos hq]
        refine ⟨_, ?_, ((says_prepare hq).arg lineEnd).set rfl⟩
        simp [moves, hsnd, hr]
      · rw [if_neg hq]
        have := prepareSending_trace_false (by simpa using hq)
        refine ⟨.quiet, ?_, says_quiet this.1⟩
        simp [hsnd, hr, moves]
    · split
      · refine ⟨.quiet, ?_, says_quiet ?_⟩
        · simp only [moves, hsnd, hr]; split <;> simp
        · simp
      · cases hi : d.ipConnected <;> cases hd : d.disconnectPending <;> refine ⟨.quiet, ?_, says_quiet ?_⟩ <;>
          simp [handleDisconnect, hd, hsnd, moves, hr]
  case sendDataState =>
    exact ⟨.pay, by simp [act, hsnd, moves, hr], _, by simp only [act, hsnd]; rfl⟩
  case sendCiprecvdata =>
    have e : act d = actCiprecvdata d := by simp only [act, hsnd]
    rw [e]
    unfold actCiprecvdata
    cases hd : d.disconnectPending
    · simp only [Bool.false_eq_true, if_false]
      split
      · by_cases hq : (sendCiprcvdata d).2 = true
        · rw [if_pos hq]
          exact ⟨_, by simp only [moves, hsnd]; exact .head _, (says_sendCiprcvdata hq).set rfl⟩
        · rw [if_neg hq]
          have := sendCiprcvdata_false (d := d) (by simpa using hq)
          refine ⟨.quiet, ?_, says_quiet ?_⟩ <;> simp [this, hsnd, moves, hr]
      · refine ⟨.quiet, ?_, says_quiet ?_⟩ <;> simp [moves, hsnd, hr]
    · refine ⟨.quiet, ?_, says_quiet ?_⟩ <;> simp [handleDisconnect, hd, moves, hsnd, hr]
  case waitReceive =>
    have e : act d = d := by simp only [act, hsnd]
    rw [e]; exact ⟨.quiet, by simp [hsnd, hr, moves], rfl⟩
  case receiving =>
    have e : act d = actReceiving d := by simp only [act, hsnd]
    rw [e]
    unfold actReceiving
    split
    · dsimp only
      by_cases hq : d.receive.2 = true
      · cases ht : decide (d.receive.1.typ = .tcp)
        · rw [if_neg (by simpa [hq] using ht)]
          exact ⟨.data, by simp [moves, hsnd, hr], _, (receive_true hq).1⟩
        · rw [if_pos ⟨hq, by simpa using ht⟩]
          exact ⟨.data, by simp [moves, hsnd], _, (receive_true hq).1⟩
      · rw [if_neg (fun x => hq x.1)]
        have := receive_trace_false (d := d) (by simpa using hq)
        exact ⟨.quiet, by simp [moves, hsnd, hr], this.1⟩
    · split <;> refine ⟨.quiet, ?_, says_quiet ?_⟩ <;> simp [moves, hsnd, hr]
  case sendCipclose =>
    cases hd : d.ipConnected
    · refine ⟨.quiet, ?_, says_quiet ?_⟩ <;> simp [act, hsnd, hd, moves, hr, handleDisconnect]
    · have hs : Says (.cmd b!"AT+CIPCLOSE" (b!"AT+CIPCLOSE" ++ lineEnd)) d (act d) := by
        simp only [act, hsnd, hd, Bool.false_eq_true, if_false, if_true]
        exact (says_sendCommand d _).set rfl
      exact ⟨_, by simp [act, hsnd, hd, moves, hr], hs⟩
  case sendCwqap =>
    have hs : Says (.cmd b!"AT+CWQAP" (b!"AT+CWQAP" ++ lineEnd)) d (act d) := by
      simp only [act, hsnd]
      exact (says_sendCommand d b!"AT+CWQAP").set rfl
    exact ⟨_, by simp [act, hsnd, moves, hr], hs⟩
  case finalizeDisconnect =>
    refine ⟨.quiet, ?_, says_quiet ?_⟩ <;> simp [act, hsnd, moves, hr]
  case serialError =>
    have e : act d = d := by simp only [act, hsnd]
    rw [e]; exact ⟨.quiet, by simp [hsnd, hr, moves], rfl⟩

end Espressif

namespace CC1352P7

theorem says_sendCiprcvdata {d : D} (h : (sendCiprcvdata d).2 = true) :
    Says (.cmd b!"AT+CIPRECVDATA=" (b!"AT+CIPRECVDATA=" ++ dec (askAmount d) ++ lineEnd)) d (sendCiprcvdata d).1 := by
  obtain ⟨g1, g2, g3, ht⟩ := sendCiprcvdata_true h
  exact ⟨g1, [.arg (dec (askAmount d)) g2, .arg lineEnd g3], by rw [ht]; simp, rfl, by simp [args]⟩

/-- Possible turns. -/
def moves (d : D) : List (Kind × Snd × Rep) :=
  match d.snd with
  | .notConnected =>
    [(.quiet, .notConnected, .okReply),
     (.quiet, .connecting, .okReply)]
  | .connecting =>
    [(.cmd b!"ATE0" (b!"ATE0" ++ lineEnd), .sendCipstart, .okReply)]
  | .sendCipstart =>
    [(.cmd b!"AT+CIPSTART" (b!"AT+CIPSTART" ++ (if d.typ = .udp then b!"=\"UDP\",\"" else b!"=\"TCP\",\"") ++
      d.host.getD [] ++ b!"\"," ++ dec5 d.port ++ lineEnd), .finalizeConnect, .okReply)]
  | .finalizeConnect =>
    [(.quiet, .connected, .okReply)]
  | .connected =>
    [(.cmd b!"AT+CIPSEND=" (b!"AT+CIPSEND=" ++ ([] : List Byte) ++ dec5 d.sendAmount ++ lineEnd), .sendDataState, .okReply),
     (.quiet, .connected, .okReply),
     (.quiet, .sendCiprecvdata, .okReply),
     (.quiet, .sendCipclose, .okReply),
     (.quiet, .finalizeDisconnect, .okReply)]
  | .sendDataState =>
    [(.pay, .connected, .okReply)]
  | .sendCiprecvdata =>
    [(.cmd b!"AT+CIPRECVDATA=" (b!"AT+CIPRECVDATA=" ++ dec (askAmount d) ++ lineEnd), .waitReceive, .parseStateCiprecvdata),
     (.quiet, .sendCiprecvdata, .okReply),
     (.quiet, .connected, .okReply),
     (.quiet, .sendCipclose, .okReply)]
  | .waitReceive =>
    [(.quiet, .waitReceive, .okReply)]
  | .receiving =>
    [(.data, .receiving, .okReply),
     (.quiet, .receiving, .okReply),
     (.quiet, .sendCiprecvdata, .okReply),
     (.quiet, .connected, .okReply)]
  | .sendCipclose =>
    [(.cmd b!"AT+CIPCLOSE" (b!"AT+CIPCLOSE" ++ lineEnd), .finalizeDisconnect, .okReply)]
  | .finalizeDisconnect =>
    [(.quiet, .notConnected, .okReply)]
  | .serialError =>
    [(.quiet, .serialError, .okReply)]

theorem act_moves {d : D} (hr : d.rep = .okReply) : Moves (moves d) d (act d) := by
  cases hsnd : d.snd
  case notConnected =>
    refine ⟨.quiet, ?_, says_quiet ?_⟩ <;> simp only [act, hsnd] <;>
      cases hk : d.connectPending <;> simp [handleConnect, hk, hsnd, moves, hr]
  case connecting =>
    have hs : Says (.cmd b!"ATE0" (b!"ATE0" ++ lineEnd)) d (act d) := by
      simp only [act, hsnd]
      exact (says_sendCommand d b!"ATE0").set rfl
    exact ⟨_, by simp [act, hsnd, moves, hr], hs⟩
  case sendCipstart =>
    have e : act d = actCipstart d := by simp only [act, hsnd]
    rw [e]
    have hs := fun d0 (h0 : d0.trace = d.trace) p => ((((((says_cmd d0 b!"AT+CIPSTART").arg p).arg (d.host.getD [])).arg
      b!"\",").arg (dec5 d.port)).arg lineEnd).pre h0
    cases hh : d.host <;> by_cases hu : d.typ = .udp
    · refine ⟨_, ?_, (hs { d with ub := true } rfl b!"=\"UDP\",\"").set ?_⟩ <;> simp [actCipstart, hh, hu, moves, hsnd, hr]
    · refine ⟨_, ?_, (hs { d with ub := true } rfl b!"=\"TCP\",\"").set ?_⟩ <;> simp [actCipstart, hh, hu, moves, hsnd, hr]
    · refine ⟨_, ?_, (hs d rfl b!"=\"UDP\",\"").set ?_⟩ <;> simp [actCipstart, hh, hu, moves, hsnd, hr]
    · refine ⟨_, ?_, (hs d rfl b!"=\"TCP\",\"").set ?_⟩ <;> simp [actCipstart, hh, hu, moves, hsnd, hr]
  case finalizeConnect =>
    refine ⟨.quiet, ?_, says_quiet ?_⟩ <;> simp [act, hsnd, moves, hr]
  case connected =>
    have e : act d = actConnected d := by simp only [act, hsnd]
    rw [e]
    unfold actConnected
    split
    · dsimp only
      by_cases hq : (d.prepareSending false).2 = true
      · rw [if_pos hq]
        refine ⟨_, ?_, ((says_prepare hq).arg lineEnd).set rfl⟩
        simp [moves, hsnd, hr]
      · rw [if_neg hq]
        have := prepareSending_trace_false (by simpa using hq)
        refine ⟨.quiet, ?_, says_quiet this.1⟩
        simp [hsnd, hr, moves]
    · split
      · refine ⟨.quiet, ?_, says_quiet ?_⟩ <;> simp [moves, hsnd, hr]
      · cases hi : d.ipConnected <;> cases hd : d.disconnectPending <;> refine ⟨.quiet, ?_, says_quiet ?_⟩ <;>
          simp [handleDisconnect, hd, hsnd, moves, hr]
  case sendDataState =>
    exact ⟨.pay, by simp [act, hsnd, moves, hr], _, by simp only [act, hsnd]; rfl⟩
  case sendCiprecvdata =>
    have e : act d = actCiprecvdata d := by simp only [act, hsnd]
    rw [e]
    unfold actCiprecvdata
    cases hd : d.disconnectPending
    · simp only [Bool.false_eq_true, if_false]
      split
      · by_cases hq : (sendCiprcvdata d).2 = true
        · rw [if_pos hq]
          exact ⟨_, by simp only [moves, hsnd]; exact .head _, (says_sendCiprcvdata hq).set rfl⟩
        · rw [if_neg hq]
          have := sendCiprcvdata_false (d := d) (by simpa using hq)
          refine ⟨.quiet, ?_, says_quiet ?_⟩ <;> simp [this, hsnd, moves, hr]
      · refine ⟨.quiet, ?_, says_quiet ?_⟩ <;> simp [moves, hsnd, hr]
    · refine ⟨.quiet, ?_, says_quiet ?_⟩ <;> simp [handleDisconnect, hd, moves, hsnd, hr]
  case waitReceive =>
    have e : act d = d := by simp only [act, hsnd]
    rw [e]; exact ⟨.quiet, by simp [hsnd, hr, moves], rfl⟩
  case receiving =>
    have e : act d = actReceiving d := by simp only [act, hsnd]
    rw [e]
    unfold actReceiving
    split
    · dsimp only
      by_cases hq : d.receive.2 = true
      · rw [if_pos hq]
        exact ⟨.data, by simp [moves, hsnd], _, (receive_true hq).1⟩
      · rw [if_neg hq]
        have := receive_trace_false (d := d) (by simpa using hq)
        exact ⟨.quiet, by simp [moves, hsnd, hr], this.1⟩
    · split <;> refine ⟨.quiet, ?_, says_quiet ?_⟩ <;> simp [moves, hsnd, hr]
  case sendCipclose =>
    have hs : Says (.cmd b!"AT+CIPCLOSE" (b!"AT+CIPCLOSE" ++ lineEnd)) d (act d) := by
      simp only [act, hsnd]
      exact (says_sendCommand d b!"AT+CIPCLOSE").set rfl
    exact ⟨_, by simp [act, hsnd, moves, hr], hs⟩
  case finalizeDisconnect =>
    refine ⟨.quiet, ?_, says_quiet ?_⟩ <;> simp [act, hsnd, moves, hr]
  case serialError =>
    have e : act d = d := by simp only [act, hsnd]
    rw [e]; exact ⟨.quiet, by simp [hsnd, hr, moves], rfl⟩

end CC1352P7

end Verif
