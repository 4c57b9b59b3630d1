import Verif.Lemmas.Language
import Verif.Lemmas.Wedge
import Verif.Spec.Sessions

/-!
# C55: the order of the commands, C59: their texts

C55: for every history of a driver from its constructor, every command of the connection has a predecessor of the
documented diagram (`Verif.Spec.Order`), and payload directly follows the send command.

C59: for every state of a driver, the commands of one `run()` are complete texts of the language of the modem
(`Verif.Spec.Language`) with the host, port, protocol, access point, SSID and password the application has set. The
address in the open command is the one the driver holds (`_ip`, taken from the reply to the DNS query, C42).
-/

namespace Verif.Props.Order

open Verif Dev Spec

theorem follows_form {g : Diagram} {t : List Ev} (h : g.Follows t) :
    (∀ pre w gt post, t = pre ++ .cmd w gt :: post → w ∈ g.status ∨ w ∈ g.any ∨ g.last.after pre ∈ g.before w) ∧
    (∀ pre bs post, t = pre ++ .pay bs :: post → g.last.after pre ∈ g.before payload) := by
  constructor
  · intro pre w gt post e
    have := h pre (.cmd w gt) post e
    simpa [Diagram.allows, or_assoc] using this
  · intro pre bs post e
    have := h pre (.pay bs) post e
    simpa [Diagram.allows] using this

theorem speaks_one {L : List Byte → Prop} {d e : Dev S R X} (h : Speaks L d e) (h1 : Adds 1 d e) :
    ∃ new, e.trace = d.trace ++ new ∧ (texts new).length ≤ 1 ∧ ∀ s ∈ texts new, L s := by
  obtain ⟨new, ht, hs⟩ := h
  obtain ⟨new', ht', hn⟩ := h1.le
  have e : new = new' := List.append_cancel_left (ht.symm.trans ht')
  subst e
  refine ⟨new, ht, Nat.le_trans ?_ hn, hs⟩
  clear ht ht' hs hn
  induction new with
  | nil => exact Nat.le_refl _
  | cons x l ih =>
    cases x <;> simp only [texts, sends, List.filter_cons, sent, Option.isSome] at * <;> simp <;> omega

/-- C55, Sim7x00: commands come in the order of the diagram. -/
theorem C55_sim7x00 (p : Platform) (rx tx : List Byte) (sched : List (List Hw))
    (rmem wmem : List Byte) (t : ConnType) (line ip id : List Byte) (hl : line.length = 61) (ops : List Op) :
    let d := exec (Sim7x00.step p) (Sim7x00.init (Ser.init rx tx sched) rmem wmem t line ip id) ops
    (∀ pre w g post, d.trace = pre ++ .cmd w g :: post → w ∈ diagramSim7x00.status ∨ w ∈ diagramSim7x00.any ∨
      diagramSim7x00.last.after pre ∈ diagramSim7x00.before w) ∧
    (∀ pre bs post, d.trace = pre ++ .pay bs :: post → diagramSim7x00.last.after pre = some b!"AT+CIPSEND=") := by
  intro d
  have hi : Sim7x00.OrdI d := Sim7x00.exec_stages (Sim7x00.ord_sections p) ord_calls Sim7x00.ord_own
    (Sim7x00.inv_init rx tx sched rmem wmem t ip id hl)
    ⟨always_snoc (t := []).mpr ⟨always_nil _, rfl⟩, by
      simp [Sim7x00.init, SimDev.resetStates, SimDev.init, Diagram.last, Observer.after, Sim7x00.sndLast, isIn], by
      simp [Sim7x00.init, SimDev.resetStates, SimDev.init, Sim7x00.repLast, isIn]⟩ ops
  obtain ⟨h1, h2⟩ := follows_form hi.ord
  refine ⟨h1, fun pre bs post e => ?_⟩
  have := h2 pre bs post e
  rw [show diagramSim7x00.before payload = [some b!"AT+CIPSEND="] by decide] at this
  exact List.mem_singleton.mp this

/-- A complete connection with one block of payload. -/
example :
    let d := exec (Sim7x00.step Sess.arm) Sess.sim7x00
      (Sess.up7x00 .tcp ++ [.write b!"x", .run true] ++ Sess.talk b!">" ++ Sess.talk b!"OK\r\n" ++ Sess.down7x00)
    (d.trace.filterMap sent).map (fun k => k.getD payload) =
      [b!"ATE0", b!"AT+CGSOCKCONT=1,\"IP\",\"", b!"AT+CSOCKSETPN=1", b!"AT+CIPMODE=0", b!"AT+NETOPEN", b!"AT+CIPRXGET=1", b!"AT+CDNSGIP=\"", b!"AT+CIPOPEN", b!"AT+CIPSEND=", payload, b!"AT+NETCLOSE"] := by
  decide +kernel

/-- C59, Sim7x00: the texts of the commands of one `run()`. -/
theorem C59_sim7x00 (p : Platform) (d : Sim7x00.D) (openOk : Bool) (hp : d.port < 65536) :
    let d' := Sim7x00.run p d openOk
    ∃ new, d'.trace = d.trace ++ new ∧ (texts new).length ≤ 1 ∧
      ∀ s ∈ texts new, LangSim7x00 (d.host.getD []) (cstr d'.ext.ip.cells) (d.ext.apn.getD []) d.port d.typ s :=
  speaks_one (Sim7x00.run_speaks p openOk hp) (Sim7x00.adds_run p d openOk)

/-- The texts of a complete handshake. -/
example :
    let d := exec (Sim7x00.step Sess.arm) Sess.sim7x00 (Sess.up7x00 .tcp)
    d.port < 65536 ∧ texts d.trace =
      [b!"ATE0\r\n", b!"AT+CGSOCKCONT=1,\"IP\",\"a\"\r\n", b!"AT+CSOCKSETPN=1\r\n", b!"AT+CIPMODE=0\r\n", b!"AT+NETOPEN\r\n", b!"AT+CIPRXGET=1\r\n", b!"AT+CDNSGIP=\"h\"\r\n", b!"AT+CIPOPEN=0,\"TCP\",\"1.2.3.4\",80\r\n"] := by
  decide +kernel

/-- C55, Sim800: commands come in the order of the diagram. -/
theorem C55_sim800 (p : Platform) (rx tx : List Byte) (sched : List (List Hw))
    (rmem wmem : List Byte) (t : ConnType) (line ip id : List Byte) (hl : line.length = 61) (ops : List Op) :
    let d := exec (Sim800.step p) (Sim800.init (Ser.init rx tx sched) rmem wmem t line ip id) ops
    (∀ pre w g post, d.trace = pre ++ .cmd w g :: post → w ∈ diagramSim800.status ∨ w ∈ diagramSim800.any ∨
      diagramSim800.last.after pre ∈ diagramSim800.before w) ∧
    (∀ pre bs post, d.trace = pre ++ .pay bs :: post → diagramSim800.last.after pre = some b!"AT+CIPSEND=") := by
  intro d
  have hi : Sim800.OrdI d := Sim800.exec_stages (Sim800.ord_sections p) ord_calls Sim800.ord_own
    (Sim800.inv_init rx tx sched rmem wmem t ip id hl)
    ⟨always_snoc (t := []).mpr ⟨always_nil _, rfl⟩, by
      simp [Sim800.init, SimDev.resetStates, SimDev.init, Diagram.last, Observer.after, Sim800.sndLast, isIn], by
      simp [Sim800.init, SimDev.resetStates, SimDev.init, Sim800.repLast, isIn]⟩ ops
  obtain ⟨h1, h2⟩ := follows_form hi.ord
  refine ⟨h1, fun pre bs post e => ?_⟩
  have := h2 pre bs post e
  rw [show diagramSim800.before payload = [some b!"AT+CIPSEND="] by decide] at this
  exact List.mem_singleton.mp this

/-- A complete connection with one block of payload. -/
example :
    let d := exec (Sim800.step Sess.arm) Sess.sim800
      (Sess.up800 .tcp ++ [.write b!"x", .run true] ++ Sess.talk b!">" ++ Sess.talk b!"0, SEND OK\r\n" ++ Sess.down800)
    (d.trace.filterMap sent).map (fun k => k.getD payload) =
      [b!"ATE0", b!"AT+CIPRXGET=1", b!"AT+CIPMUX=1", b!"AT+CSTT=\"", b!"AT+CIICR", b!"AT+CIFSR", b!"AT+CDNSGIP=\"", b!"AT+CIPSTART", b!"AT+CIPSEND=", payload, b!"AT+CIPCLOSE=0", b!"AT+CIPSHUT"] := by
  decide +kernel

/-- C59, Sim800: the texts of the commands of one `run()`. -/
theorem C59_sim800 (p : Platform) (d : Sim800.D) (openOk : Bool) (hp : d.port < 65536) :
    let d' := Sim800.run p d openOk
    ∃ new, d'.trace = d.trace ++ new ∧ (texts new).length ≤ 1 ∧
      ∀ s ∈ texts new, LangSim800 (d.host.getD []) (cstr d'.ext.ip.cells) (d.ext.apn.getD []) d.port d.typ s :=
  speaks_one (Sim800.run_speaks p openOk hp) (Sim800.adds_run p d openOk)

/-- The texts of a complete handshake. -/
example :
    let d := exec (Sim800.step Sess.arm) Sess.sim800 (Sess.up800 .tcp)
    d.port < 65536 ∧ texts d.trace =
      [b!"ATE0\r\n", b!"AT+CIPRXGET=1\r\n", b!"AT+CIPMUX=1\r\n", b!"AT+CSTT=\"a\"\r\n", b!"AT+CIICR\r\n", b!"AT+CIFSR\r\n", b!"AT+CDNSGIP=\"h\"\r\n", b!"AT+CIPSTART=0,\"TCP\",\"1.2.3.4\",80\r\n"] := by
  decide +kernel

/-- C55, Espressif: commands come in the order of the diagram. -/
theorem C55_espressif (p : Platform) (rx tx : List Byte) (sched : List (List Hw))
    (rmem wmem : List Byte) (t : ConnType) (line mac : List Byte) (ssid passwd : CPtr) (hl : line.length = 61) (ops : List Op) :
    let d := exec (Espressif.step p) (Espressif.init (Ser.init rx tx sched) rmem wmem t line mac ssid passwd) ops
    (∀ pre w g post, d.trace = pre ++ .cmd w g :: post → w ∈ diagramEspressif.status ∨ w ∈ diagramEspressif.any ∨
      diagramEspressif.last.after pre ∈ diagramEspressif.before w) ∧
    (∀ pre bs post, d.trace = pre ++ .pay bs :: post → diagramEspressif.last.after pre = some b!"AT+CIPSEND=") := by
  intro d
  have hi : Espressif.OrdI d := Espressif.exec_stages (Espressif.ord_sections p) ord_calls Espressif.ord_own
    (Espressif.inv_init rx tx sched rmem wmem t mac ssid passwd hl)
    ⟨always_snoc (t := []).mpr ⟨always_nil _, rfl⟩, by
      simp [Espressif.init, Espressif.resetStates, Diagram.last, Observer.after, Espressif.sndLast, isIn], by
      simp [Espressif.init, Espressif.resetStates, Espressif.repLast, isIn]⟩ ops
  obtain ⟨h1, h2⟩ := follows_form hi.ord
  refine ⟨h1, fun pre bs post e => ?_⟩
  have := h2 pre bs post e
  rw [show diagramEspressif.before payload = [some b!"AT+CIPSEND="] by decide] at this
  exact List.mem_singleton.mp this

/-- A complete connection with one block of payload. -/
example :
    let d := exec (Espressif.step Sess.arm) Sess.espressif
      (Sess.upEsp .tcp ++ [.write b!"x", .run true] ++ Sess.talk b!">" ++ Sess.talk b!"SEND OK\r\n" ++ Sess.downEsp)
    (d.trace.filterMap sent).map (fun k => k.getD payload) =
      [b!"ATE0", b!"AT+CWMODE=1", b!"AT+CWJAP=\"", b!"AT+CIPMUX=0", b!"AT+CIPRECVMODE=1", b!"AT+CIPMODE=0", b!"AT+CIPSTART", b!"AT+CIPSEND=", payload, b!"AT+CIPCLOSE", b!"AT+CWQAP"] := by
  decide +kernel

/-- C59, Espressif: the texts of the commands of one `run()`. -/
theorem C59_espressif (p : Platform) (d : Espressif.D) (openOk : Bool) (hp : d.port < 65536) :
    let d' := Espressif.run p d openOk
    ∃ new, d'.trace = d.trace ++ new ∧ (texts new).length ≤ 1 ∧
      ∀ s ∈ texts new, LangEspressif (d.host.getD []) d.ext.ssid.val d.ext.passwd.val d.port d.typ s :=
  speaks_one (Espressif.run_speaks p openOk hp) (Espressif.adds_run p d openOk)

/-- The texts of a complete handshake. -/
example :
    let d := exec (Espressif.step Sess.arm) Sess.espressif (Sess.upEsp .tcp)
    d.port < 65536 ∧ texts d.trace =
      [b!"ATE0\r\n", b!"AT+CWMODE=1\r\n", b!"AT+CWJAP=\"s\",\"p\"\r\n", b!"AT+CIPMUX=0\r\n", b!"AT+CIPRECVMODE=1\r\n", b!"AT+CIPMODE=0\r\n", b!"AT+CIPSTART=\"TCP\",\"h\",80\r\n"] := by
  decide +kernel

/-- C55, CC1352P7: commands come in the order of the diagram. -/
theorem C55_cc1352p7 (p : Platform) (rx tx : List Byte) (sched : List (List Hw))
    (rmem wmem : List Byte) (t : ConnType) (line mac : List Byte) (hl : line.length = 61) (ops : List Op) :
    let d := exec (CC1352P7.step p) (CC1352P7.init (Ser.init rx tx sched) rmem wmem t line mac) ops
    (∀ pre w g post, d.trace = pre ++ .cmd w g :: post → w ∈ diagramCC1352P7.status ∨ w ∈ diagramCC1352P7.any ∨
      diagramCC1352P7.last.after pre ∈ diagramCC1352P7.before w) ∧
    (∀ pre bs post, d.trace = pre ++ .pay bs :: post → diagramCC1352P7.last.after pre = some b!"AT+CIPSEND=") := by
  intro d
  have hi : CC1352P7.OrdI d := CC1352P7.exec_stages (CC1352P7.ord_sections p) ord_calls CC1352P7.ord_own
    (CC1352P7.inv_init rx tx sched rmem wmem t mac hl)
    ⟨always_snoc (t := []).mpr ⟨always_nil _, rfl⟩, by
      simp [CC1352P7.init, CC1352P7.resetStates, Diagram.last, Observer.after, CC1352P7.sndLast, isIn], by
      simp [CC1352P7.init, CC1352P7.resetStates, CC1352P7.repLast, isIn]⟩ ops
  obtain ⟨h1, h2⟩ := follows_form hi.ord
  refine ⟨h1, fun pre bs post e => ?_⟩
  have := h2 pre bs post e
  rw [show diagramCC1352P7.before payload = [some b!"AT+CIPSEND="] by decide] at this
  exact List.mem_singleton.mp this

/-- A complete connection with one block of payload. -/
example :
    let d := exec (CC1352P7.step Sess.arm) Sess.cc1352p7
      (Sess.upCC .tcp ++ [.write b!"x", .run true] ++ Sess.talk b!">" ++ Sess.talk b!"SEND OK\r\n" ++ Sess.downCC)
    (d.trace.filterMap sent).map (fun k => k.getD payload) =
      [b!"ATE0", b!"AT+CIPSTART", b!"AT+CIPSEND=", payload, b!"AT+CIPCLOSE"] := by
  decide +kernel

/-- C59, CC1352P7: the texts of the commands of one `run()`. -/
theorem C59_cc1352p7 (p : Platform) (d : CC1352P7.D) (openOk : Bool) (hp : d.port < 65536) :
    let d' := CC1352P7.run p d openOk
    ∃ new, d'.trace = d.trace ++ new ∧ (texts new).length ≤ 1 ∧
      ∀ s ∈ texts new, LangCC1352P7 (d.host.getD []) d.port d.typ s :=
  speaks_one (CC1352P7.run_speaks p openOk hp) (CC1352P7.adds_run p d openOk)

/-- The texts of a complete handshake. -/
example :
    let d := exec (CC1352P7.step Sess.arm) Sess.cc1352p7 (Sess.upCC .tcp)
    d.port < 65536 ∧ texts d.trace =
      [b!"ATE0\r\n", b!"AT+CIPSTART=\"TCP\",\"h\",80\r\n"] := by
  decide +kernel

end Verif.Props.Order
