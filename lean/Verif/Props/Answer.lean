import Verif.Lemmas.AnswerIccid
import Verif.Spec.Sessions

/-!
# C70: answers are waited for

Some commands ask the modem for a value: signal strength, identification, MAC address, IP address of a name, amount of
received data. For every history of a driver from its constructor: after such a command the driver transmits nothing until
the modem has sent a line with the value, or the receive buffers were flushed because of a modem reset, or the application
called `resetStates()`. Other lines, among them OK, make no difference (which lines count as the value is in
`Spec/Answer.lean`). So a modem that says OK without a value stops the driver.
-/

namespace Verif.Props.Answer

open Verif Dev Spec

/-- C70, SIM7x00: after each question the driver transmits nothing until the value has come. -/
theorem C70_sim7x00 (p : Platform) (rx tx : List Byte) (sched : List (List Hw)) (rmem wmem : List Byte)
    (t : ConnType) (line ip id : List Byte) (hl : line.length = 61) (ops : List Op) :
    Awaited questionsSim7x00
      (exec (Sim7x00.step p) (Sim7x00.init (Ser.init rx tx sched) rmem wmem t line ip id) ops).trace := by
  obtain ⟨_, new, h1, h2, _⟩ := Sim7x00.exec_stages
    (Sim7x00.quest_sections p (Sim7x00.true_sections p) [] (fun _ h => h) (fun _ _ _ _ _ => trivial)
      fun e l w v _ hd _ => Sim7x00.quest_lines p e l w v hd)
    QuestInv.calls' (Sim7x00.quest_own []) (Sim7x00.inv_init rx tx sched rmem wmem t ip id hl)
    ⟨trivial, .first (by simp [Sim7x00.init, SimDev.init, SimDev.resetStates])⟩ ops
  rw [h1, List.nil_append]
  exact questOk_form h2

/-- The modem says OK without a value, then ERROR; the application wants to connect: nothing is sent. -/
example :
    let ops : List Op := [.run true, .requestRSSI, .run true] ++ Sess.talk b!"OK\r\n" ++ Sess.talk b!"ERROR\r\n" ++
      Sess.up7x00 .tcp
    let d := exec (Sim7x00.step Sess.arm) Sess.sim7x00 ops
    let mid := d.trace.drop 2
    d.trace = [.apiReset] ++ .cmd b!"AT+CSQ" b!"AT+CSQ" :: mid ++ [] ∧ .line b!"OK\r\n" ∈ mid ∧
      .line b!"ERROR\r\n" ∈ mid ∧ .apiConnect ∈ mid ∧ .flush ∉ mid ∧ .apiReset ∉ mid ∧
      (questionsSim7x00.lookup b!"AT+CSQ").isSome = true ∧
      (mid.all fun e => match e with | .line l => ((questionsSim7x00.lookup b!"AT+CSQ").map (· l)) == some false | _ => true) = true := by
  decide +kernel

/-- With the value it goes on. -/
example :
    let ops : List Op := [.run true, .requestRSSI, .run true] ++ Sess.talk b!"+CSQ: 20,0\r\n" ++ Sess.talk b!"OK\r\n" ++
      Sess.up7x00 .tcp
    (exec (Sim7x00.step Sess.arm) Sess.sim7x00 ops).isConnected = true := by
  decide +kernel

/-- C70, SIM800: after each question the driver transmits nothing until the value has come. -/
theorem C70_sim800 (p : Platform) (rx tx : List Byte) (sched : List (List Hw)) (rmem wmem : List Byte)
    (t : ConnType) (line ip id : List Byte) (hl : line.length = 61) (ops : List Op) :
    Awaited questionsSim800
      (exec (Sim800.step p) (Sim800.init (Ser.init rx tx sched) rmem wmem t line ip id) ops).trace := by
  obtain ⟨_, new, h1, h2, _⟩ := Sim800.exec_stages
    (Sim800.quest_sections p (Sim800.true_sections p) [] (fun _ h => h) (fun _ _ _ _ _ => trivial)
      fun e l w v _ hd _ => Sim800.quest_lines p e l w v hd)
    QuestInv.calls' (Sim800.quest_own []) (Sim800.inv_init rx tx sched rmem wmem t ip id hl)
    ⟨trivial, .first (by simp [Sim800.init, SimDev.init, SimDev.resetStates])⟩ ops
  rw [h1, List.nil_append]
  exact questOk_form h2

/-- The modem answers the question for the IP address of the host without an address and says OK; the application gives up and
wants to disconnect: nothing is sent. -/
example :
    let w := b!"AT+CDNSGIP=\""
    let ops : List Op :=
      [.run true, .setApn (some b!"a"), .setHostPort (some b!"h") 80 .tcp, .connect, .run true, .run true] ++
      (List.replicate 5 (Sess.talk b!"OK\r\n")).flatten ++ Sess.talk b!"1.1.1.1\r\n" ++
      Sess.talk b!"+CDNSGIP: 1\r\n" ++ Sess.talk b!"OK\r\n" ++
      .disconnect :: List.replicate 9 (.run true)
    let d := exec (Sim800.step Sess.arm) Sess.sim800 ops
    let pre := d.trace.takeWhile fun e => !decide (e = .cmd w w)
    let mid := d.trace.drop (pre.length + 1)
    d.trace = pre ++ .cmd w w :: mid ++ [] ∧ .line b!"+CDNSGIP: 1\r\n" ∈ mid ∧ .line b!"OK\r\n" ∈ mid ∧
      .apiDisconnect ∈ mid ∧ .flush ∉ mid ∧ .apiReset ∉ mid ∧
      (questionsSim800.lookup w).isSome = true ∧
      (mid.all fun e => match e with | .line l => ((questionsSim800.lookup w).map (· l)) == some false | _ => true) = true := by
  decide +kernel

/-- With the value it goes on. -/
example :
    let ops : List Op := [.run true, .requestID .iccid, .run true] ++ Sess.talk b!"89490200001632477314\r\n" ++ Sess.talk b!"OK\r\n" ++
      Sess.up800 .tcp
    (exec (Sim800.step Sess.arm) Sess.sim800 ops).isConnected = true := by
  decide +kernel

/-- C70, Espressif: after each question the driver transmits nothing until the value has come. -/
theorem C70_espressif (p : Platform) (rx tx : List Byte) (sched : List (List Hw)) (rmem wmem : List Byte)
    (t : ConnType) (line mac : List Byte) (ssid passwd : CPtr) (hl : line.length = 61) (ops : List Op) :
    Awaited questionsEspressif
      (exec (Espressif.step p) (Espressif.init (Ser.init rx tx sched) rmem wmem t line mac ssid passwd) ops).trace := by
  obtain ⟨new, h1, h2, _⟩ := Espressif.exec_stages (Espressif.quest_sections p []) QuestInv.calls (Espressif.quest_own [])
    (Espressif.inv_init rx tx sched rmem wmem t mac ssid passwd hl) (.first (by simp [Espressif.init, Espressif.resetStates])) ops
  rw [h1, List.nil_append]
  exact questOk_form h2

/-- The modem says OK without a value twice; the application wants to connect: nothing is sent. -/
example :
    let ops : List Op := [.run true, .requestRSSI, .run true] ++ Sess.talk b!"OK\r\n" ++ Sess.talk b!"OK\r\n" ++
      Sess.upEsp .tcp
    let d := exec (Espressif.step Sess.arm) Sess.espressif ops
    let mid := d.trace.drop 2
    d.trace = [.apiReset] ++ .cmd b!"AT+CWJAP?" b!"AT+CWJAP?" :: mid ++ [] ∧ .line b!"OK\r\n" ∈ mid ∧
      .apiConnect ∈ mid ∧ .flush ∉ mid ∧ .apiReset ∉ mid ∧
      (questionsEspressif.lookup b!"AT+CWJAP?").isSome = true ∧
      (mid.all fun e => match e with | .line l => ((questionsEspressif.lookup b!"AT+CWJAP?").map (· l)) == some false | _ => true) = true := by
  decide +kernel

/-- With the value it goes on. -/
example :
    let ops : List Op := [.run true, .requestRSSI, .run true] ++ Sess.talk b!"+CWJAP:\"a\",\"b\",6,-60\r\n" ++ Sess.talk b!"OK\r\n" ++
      Sess.upEsp .tcp
    (exec (Espressif.step Sess.arm) Sess.espressif ops).isConnected = true := by
  decide +kernel

/-- C70, CC1352P7: after each question the driver transmits nothing until the value has come. -/
theorem C70_cc1352p7 (p : Platform) (rx tx : List Byte) (sched : List (List Hw)) (rmem wmem : List Byte)
    (t : ConnType) (line mac : List Byte) (hl : line.length = 61) (ops : List Op) :
    Awaited questionsCC1352P7
      (exec (CC1352P7.step p) (CC1352P7.init (Ser.init rx tx sched) rmem wmem t line mac) ops).trace := by
  obtain ⟨new, h1, h2, _⟩ := CC1352P7.exec_stages (CC1352P7.quest_sections p []) QuestInv.calls (CC1352P7.quest_own [])
    (CC1352P7.inv_init rx tx sched rmem wmem t mac hl) (.first (by simp [CC1352P7.init, CC1352P7.resetStates])) ops
  rw [h1, List.nil_append]
  exact questOk_form h2

/-- The modem says OK without a value twice; the application wants to connect: nothing is sent. -/
example :
    let ops : List Op := [.run true, .requestMac, .run true] ++ Sess.talk b!"OK\r\n" ++ Sess.talk b!"OK\r\n" ++
      Sess.upCC .tcp
    let d := exec (CC1352P7.step Sess.arm) Sess.cc1352p7 ops
    let mid := d.trace.drop 2
    d.trace = [.apiReset] ++ .cmd b!"AT+CIPSTAMAC" b!"AT+CIPSTAMAC" :: mid ++ [] ∧ .line b!"OK\r\n" ∈ mid ∧
      .apiConnect ∈ mid ∧ .flush ∉ mid ∧ .apiReset ∉ mid ∧
      (questionsCC1352P7.lookup b!"AT+CIPSTAMAC").isSome = true ∧
      (mid.all fun e => match e with | .line l => ((questionsCC1352P7.lookup b!"AT+CIPSTAMAC").map (· l)) == some false | _ => true) = true := by
  decide +kernel

/-- With the value it goes on. -/
example :
    let ops : List Op := [.run true, .requestMac, .run true] ++ Sess.talk b!"+CIPSTAMAC:\"00\"\r\n" ++ Sess.talk b!"OK\r\n" ++
      Sess.upCC .tcp
    (exec (CC1352P7.step Sess.arm) Sess.cc1352p7 ops).isConnected = true := by
  decide +kernel

/-- C70, SIM7x00: after `requestIDString(ICCID)` the question for it is answered by a valid ICCID only. -/
theorem C70_sim7x00_iccid (p : Platform) (rx tx : List Byte) (sched : List (List Hw)) (rmem wmem : List Byte)
    (t : ConnType) (line ip id : List Byte) (hl : line.length = lineMax + 1) (hid : id.length = idMax)
    (before after : List Op) (ho : ∀ t, Op.requestID t ∉ after) :
    let d0 := Sim7x00.init (Ser.init rx tx sched) rmem wmem t line ip id
    let d1 := exec (Sim7x00.step p) d0 before
    let d2 := exec (Sim7x00.step p) d0 (before ++ .requestID .iccid :: after)
    ∃ new, d2.trace = d1.trace ++ new ∧ Awaited (questionIccid b!"AT+CICCID") new := by
  intro d0 d1 d2
  have hv : Sim7x00.Inv d0 := Sim7x00.inv_init rx tx sched rmem wmem t ip id hl
  have hlen : IdLen (S := Sim7x00.Snd) (R := Sim7x00.Rep) d0 := by
    simp [IdLen, d0, Sim7x00.init, SimDev.init, SimDev.resetStates, Mem.store, hid]
  have h1 := Sim7x00.idLen_exec p hv hlen before
  have e : d2 = exec (Sim7x00.step p) (SimDev.requestIDString d1 .iccid) after := by
    show exec _ _ _ = _
    rw [exec_append]; rfl
  have h2 := Sim7x00.iccid_exec p d1.trace (d := SimDev.requestIDString d1 .iccid)
    (Sim7x00.step_inv p (.requestID .iccid) (Sim7x00.inv_exec p hv before)) ⟨.start d1 h1, (QuestInv.start d1).same rfl rfl⟩ after ho
  rw [← e] at h2
  obtain ⟨new, a, b, _⟩ := h2.2
  exact ⟨new, a, questOk_form b⟩

/-- An identification that is not a valid ICCID is no answer. -/
example :
    let after : List Op := [.run true] ++ Sess.talk b!"1234\r\n" ++ Sess.talk b!"OK\r\n" ++ Sess.up7x00 .tcp
    let d := exec (Sim7x00.step Sess.arm) Sess.sim7x00 (.run true :: .requestID .iccid :: after)
    let mid := d.trace.drop 2
    d.trace = [.apiReset] ++ (.cmd b!"AT+CICCID" b!"AT+CICCID" :: mid) ∧ .line b!"1234\r\n" ∈ mid ∧
      identLine b!"1234\r\n" = true ∧ .apiConnect ∈ mid ∧ .flush ∉ mid ∧ .apiReset ∉ mid := by
  decide +kernel

/-- C70, SIM800: after `requestIDString(ICCID)` the question for it is answered by a valid ICCID only (in histories without a request for the signal strength). -/
theorem C70_sim800_iccid (p : Platform) (rx tx : List Byte) (sched : List (List Hw)) (rmem wmem : List Byte)
    (t : ConnType) (line ip id : List Byte) (hl : line.length = lineMax + 1) (hid : id.length = idMax)
    (before after : List Op) (ho : ∀ t, Op.requestID t ∉ after)
    (hb : Op.requestRSSI ∉ before) (ha : Op.requestRSSI ∉ after) :
    let d0 := Sim800.init (Ser.init rx tx sched) rmem wmem t line ip id
    let d1 := exec (Sim800.step p) d0 before
    let d2 := exec (Sim800.step p) d0 (before ++ .requestID .iccid :: after)
    ∃ new, d2.trace = d1.trace ++ new ∧ Awaited (questionIccid b!"AT+CCID") new := by
  intro d0 d1 d2
  have hv : Sim800.Inv d0 := Sim800.inv_init rx tx sched rmem wmem t ip id hl
  have hlen : Sim800.LenI d0 := by
    refine ⟨?_, ?_, ?_⟩ <;>
    simp [IdLen, d0, Sim800.init, SimDev.init, SimDev.resetStates, Mem.store, hid, int16Max]
  have h1 := Sim800.len_exec p hv hlen before hb
  have e : d2 = exec (Sim800.step p) (SimDev.requestIDString d1 .iccid) after := by
    show exec _ _ _ = _
    rw [exec_append]; rfl
  have h2 := Sim800.iccid_exec p d1.trace (d := SimDev.requestIDString d1 .iccid)
    (Sim800.step_inv p (.requestID .iccid) (Sim800.inv_exec p hv before)) ⟨⟨.start d1 h1.1, h1.2⟩, (QuestInv.start d1).same rfl rfl⟩ after ho ha
  rw [← e] at h2
  obtain ⟨new, a, b, _⟩ := h2.2
  exact ⟨new, a, questOk_form b⟩

/-- An identification that is not a valid ICCID is no answer. -/
example :
    let after : List Op := [.run true] ++ Sess.talk b!"1234\r\n" ++ Sess.talk b!"OK\r\n" ++ Sess.up800 .tcp
    let d := exec (Sim800.step Sess.arm) Sess.sim800 (.run true :: .requestID .iccid :: after)
    let mid := d.trace.drop 2
    d.trace = [.apiReset] ++ (.cmd b!"AT+CCID" b!"AT+CCID" :: mid) ∧ .line b!"1234\r\n" ∈ mid ∧
      identLine b!"1234\r\n" = true ∧ .apiConnect ∈ mid ∧ .flush ∉ mid ∧ .apiReset ∉ mid := by
  decide +kernel

/-- C70, SIM7x00: the application asks for the IMEI and, before the answer has come, for the model. The second question is
never passed on: the driver reports the IMEI as the model. -/
theorem C70_sim7x00_second :
    let d := exec (Sim7x00.step Sess.arm) Sess.sim7x00 ([.run true, .requestID .imei, .run true, .requestID .model] ++
      Sess.talk b!"867322035041386\r\n" ++ Sess.talk b!"OK\r\n" ++ List.replicate 9 (.run true))
    d.getIDString = some b!"867322035041386" ∧ (d.trace.filterMap sent) = [some b!"AT+CGSN"] := by
  decide +kernel

/-- C70, SIM800: the application asks for the IMEI and, before the answer has come, for the model. The second question is
never passed on: the driver reports the IMEI as the model. -/
theorem C70_sim800_second :
    let d := exec (Sim800.step Sess.arm) Sess.sim800 ([.run true, .requestID .imei, .run true, .requestID .model] ++
      Sess.talk b!"867322035041386\r\n" ++ Sess.talk b!"OK\r\n" ++ List.replicate 9 (.run true))
    d.getIDString = some b!"867322035041386" ∧ (d.trace.filterMap sent) = [some b!"AT+CGSN"] := by
  decide +kernel

end Verif.Props.Answer
