import Verif.Lemmas.Whole
import Verif.Lemmas.Order
import Verif.Spec.Sessions

/-!
# C56: commands are sent whole

For every state of a driver: if the text and payload of one `run()` are not longer than the free space of the transmit
buffer, the serial device accepts all of it. Texts of up to 20 bytes are always accepted, because `run()` asks for that
much space before (the reset commands of SIM7x00 and Espressif are the exception). Longer commands are cut off when there is less space, and the command of a
modem reset is cut off without space: the driver does not notice.
-/

namespace Verif.Props.Whole

open Verif Dev Spec

/-- C56, Sim7x00: what fits into the transmit buffer is accepted. -/
theorem C56_sim7x00 (p : Platform) (d : Sim7x00.D) (openOk : Bool) :
    let d' := Sim7x00.run p d openOk
    ∃ new, d'.trace = d.trace ++ new ∧
      (Strings new → outLen new ≤ d.ser.tx.ring.size - d.ser.tx.ring.avail → Whole new) := by
  intro d'
  obtain ⟨new, h1, h2⟩ := (Sim7x00.eff_run (x := NoHeader) (st := false) p d openOk (by intro h; cases h)).room
  exact ⟨new, h1, fun hs hl => (h2 hs hl).1⟩

/-- C56, Sim7x00: commands of up to 20 bytes are accepted whatever the state of the transmit buffer. -/
theorem C56_short_sim7x00 (p : Platform) (d : Sim7x00.D) (openOk : Bool) (h : d.resetPending = false) :
    let d' := Sim7x00.run p d openOk
    ∃ new, d'.trace = d.trace ++ new ∧ (Strings new → outLen new ≤ 20 → Whole new) := by
  intro d'
  show Short 20 d (Sim7x00.run p d openOk)
  unfold Sim7x00.run
  rw [if_neg (show ¬ d.resetPending = true by rw [h]; decide)]
  (repeat' split) <;> first
    | exact Sim7x00.short_work p d
    | exact .same rfl
    | (unfold Sim7x00.tryOpen; split <;> exact .same rfl)

/-- The first command of a connection. -/
example :
    let d := exec (Sim7x00.step Sess.arm) Sess.sim7x00 [.run true, .setApn (some b!"a"), .setHostPort (some b!"h") 80 .tcp, .connect, .run true]
    let new := (Sim7x00.run Sess.arm d true).trace.drop d.trace.length
    d.resetPending = false ∧ new = [.cmd b!"ATE0" b!"ATE0", .arg b!"\r\n" b!"\r\n"] ∧ outLen new = 6 ∧
      d.ser.tx.ring.size - d.ser.tx.ring.avail = 80 := by
  decide +kernel

/-- C56, Sim7x00: with at least 20, but too few free bytes in the transmit buffer the driver starts a command, which is cut off. -/
theorem C56_sim7x00_cut :
    let d := exec (Sim7x00.step Sess.arm) (Sim7x00.init (Ser.init (List.replicate 80 0) (List.replicate 30 0) []) (List.replicate 8 0) (List.replicate 8 0) .tcp
      (List.replicate 61 0) (List.replicate 16 0) (List.replicate 24 0))
      ([.run true, .setApn (some b!"a"), .setHostPort (some b!"h") 80 .tcp, .connect, .run true, .run true] ++
        [.irq (b!"OK\r\n".map fun c => ⟨some c, false⟩)])
    let new := (Sim7x00.run Sess.arm d true).trace.drop d.trace.length
    let free := d.ser.tx.ring.size - d.ser.tx.ring.avail
    20 ≤ free ∧ free < outLen new ∧ new = [.line b!"OK\r\n",
      .cmd b!"AT+CGSOCKCONT=1,\"IP\",\"" b!"AT+CGSOCKCONT=1,\"IP\",\"",
      .arg b!"a" b!"a",
      .arg b!"\"\r\n" b!"\""] := by
  decide +kernel

/-- C56, Sim800: what fits into the transmit buffer is accepted. -/
theorem C56_sim800 (p : Platform) (d : Sim800.D) (openOk : Bool) :
    let d' := Sim800.run p d openOk
    ∃ new, d'.trace = d.trace ++ new ∧
      (Strings new → outLen new ≤ d.ser.tx.ring.size - d.ser.tx.ring.avail → Whole new) := by
  intro d'
  obtain ⟨new, h1, h2⟩ := (Sim800.eff_run (x := NoHeader) (st := false) p d openOk (by intro h; cases h)).room
  exact ⟨new, h1, fun hs hl => (h2 hs hl).1⟩

/-- C56, Sim800: commands of up to 20 bytes are accepted whatever the state of the transmit buffer. -/
theorem C56_short_sim800 (p : Platform) (d : Sim800.D) (openOk : Bool) :
    let d' := Sim800.run p d openOk
    ∃ new, d'.trace = d.trace ++ new ∧ (Strings new → outLen new ≤ 20 → Whole new) := by
  intro d'
  show Short 20 d (Sim800.run p d openOk)
  unfold Sim800.run
  have hr : Short 20 d (Sim800.handleReset d) := by
    refine .silent [.flush] ?_ (by simp)
    unfold Sim800.handleReset
    dsimp only
    have h1 : ∀ e : Sim800.D, e.ipConnect.1.trace = e.trace := by intro e; unfold Dev.ipConnect; split <;> rfl
    have hi : ∀ e : Sim800.D, (SimDev.connect e).1.trace = e.trace := by
      intro e; unfold SimDev.connect; split; · rfl
      · exact h1 e
    split
    · rw [hi]; rfl
    · rfl
  (repeat' split) <;> first
    | exact hr.trans (Sim800.short_work p _)
    | exact Sim800.short_work p d
    | exact .same rfl
    | (unfold Sim800.tryOpen; split <;> exact .same rfl)

/-- The first command of a connection. -/
example :
    let d := exec (Sim800.step Sess.arm) Sess.sim800 [.run true, .setApn (some b!"internet.example"), .setHostPort (some b!"h") 80 .tcp, .connect, .run true]
    let new := (Sim800.run Sess.arm d true).trace.drop d.trace.length
    new = [.cmd b!"ATE0" b!"ATE0", .arg b!"\r\n" b!"\r\n"] ∧ outLen new = 6 ∧
      d.ser.tx.ring.size - d.ser.tx.ring.avail = 80 := by
  decide +kernel

/-- C56, Sim800: with at least 20, but too few free bytes in the transmit buffer the driver starts a command, which is cut off. -/
theorem C56_sim800_cut :
    let d := exec (Sim800.step Sess.arm) (Sim800.init (Ser.init (List.replicate 80 0) (List.replicate 36 0) []) (List.replicate 8 0) (List.replicate 8 0) .tcp
      (List.replicate 61 0) (List.replicate 16 0) (List.replicate 24 0))
      ([.run true, .setApn (some b!"internet.example"), .setHostPort (some b!"h") 80 .tcp, .connect, .run true, .run true] ++
        Sess.talk b!"OK\r\n" ++ Sess.talk b!"OK\r\n" ++
        [.irq (b!"OK\r\n".map fun c => ⟨some c, false⟩)])
    let new := (Sim800.run Sess.arm d true).trace.drop d.trace.length
    let free := d.ser.tx.ring.size - d.ser.tx.ring.avail
    20 ≤ free ∧ free < outLen new ∧ new = [.line b!"OK\r\n",
      .cmd b!"AT+CSTT=\"" b!"AT+CSTT=\"",
      .arg b!"internet.example" b!"internet.examp",
      .arg b!"\"\r\n" b!""] := by
  decide +kernel

/-- C56, Espressif: what fits into the transmit buffer is accepted. -/
theorem C56_espressif (p : Platform) (d : Espressif.D) (openOk : Bool) :
    let d' := Espressif.run p d openOk
    ∃ new, d'.trace = d.trace ++ new ∧
      (Strings new → outLen new ≤ d.ser.tx.ring.size - d.ser.tx.ring.avail → Whole new) := by
  intro d'
  obtain ⟨new, h1, h2⟩ := (Espressif.eff_run (st := false) p d openOk (by intro h; cases h)).room
  exact ⟨new, h1, fun hs hl => (h2 hs hl).1⟩

/-- C56, Espressif: commands of up to 20 bytes are accepted whatever the state of the transmit buffer. -/
theorem C56_short_espressif (p : Platform) (d : Espressif.D) (openOk : Bool) (h : d.resetPending = false) :
    let d' := Espressif.run p d openOk
    ∃ new, d'.trace = d.trace ++ new ∧ (Strings new → outLen new ≤ 20 → Whole new) := by
  intro d'
  show Short 20 d (Espressif.run p d openOk)
  unfold Espressif.run
  rw [if_neg (show ¬ d.resetPending = true by rw [h]; decide)]
  (repeat' split) <;> first
    | exact Espressif.short_work p d
    | exact .same rfl
    | (unfold Espressif.tryOpen; split <;> exact .same rfl)

/-- The first command of a connection. -/
example :
    let d := exec (Espressif.step Sess.arm) Sess.espressif [.run true, .setSSID (some b!"network"), .setPassword (some b!"password"), .setHostPort (some b!"h") 80 .tcp, .connect,
      .run true]
    let new := (Espressif.run Sess.arm d true).trace.drop d.trace.length
    d.resetPending = false ∧ new = [.cmd b!"ATE0" b!"ATE0", .arg b!"\r\n" b!"\r\n"] ∧ outLen new = 6 ∧
      d.ser.tx.ring.size - d.ser.tx.ring.avail = 80 := by
  decide +kernel

/-- C56, Espressif: with at least 20, but too few free bytes in the transmit buffer the driver starts a command, which is cut off. -/
theorem C56_espressif_cut :
    let d := exec (Espressif.step Sess.arm) (Espressif.init (Ser.init (List.replicate 80 0) (List.replicate 36 0) []) (List.replicate 8 0) (List.replicate 8 0) .tcp
      (List.replicate 61 0) (List.replicate 18 0) .uninit .uninit)
      ([.run true, .setSSID (some b!"network"), .setPassword (some b!"password"), .setHostPort (some b!"h") 80 .tcp, .connect,
      .run true, .run true] ++
        Sess.talk b!"OK\r\n" ++
        [.irq (b!"OK\r\n".map fun c => ⟨some c, false⟩)])
    let new := (Espressif.run Sess.arm d true).trace.drop d.trace.length
    let free := d.ser.tx.ring.size - d.ser.tx.ring.avail
    20 ≤ free ∧ free < outLen new ∧ new = [.line b!"OK\r\n",
      .cmd b!"AT+CWJAP=\"" b!"AT+CWJAP=\"",
      .arg b!"network" b!"network",
      .arg b!"\",\"" b!"\",\"",
      .arg b!"password" b!"pas",
      .arg b!"\"\r\n" b!""] := by
  decide +kernel

/-- C56, CC1352P7: what fits into the transmit buffer is accepted. -/
theorem C56_cc1352p7 (p : Platform) (d : CC1352P7.D) (openOk : Bool) :
    let d' := CC1352P7.run p d openOk
    ∃ new, d'.trace = d.trace ++ new ∧
      (Strings new → outLen new ≤ d.ser.tx.ring.size - d.ser.tx.ring.avail → Whole new) := by
  intro d'
  obtain ⟨new, h1, h2⟩ := (CC1352P7.eff_run (x := NoHeader) (st := false) p d openOk (by intro h; cases h)).room
  exact ⟨new, h1, fun hs hl => (h2 hs hl).1⟩

/-- C56, CC1352P7: commands of up to 20 bytes are accepted whatever the state of the transmit buffer. -/
theorem C56_short_cc1352p7 (p : Platform) (d : CC1352P7.D) (openOk : Bool) :
    let d' := CC1352P7.run p d openOk
    ∃ new, d'.trace = d.trace ++ new ∧ (Strings new → outLen new ≤ 20 → Whole new) := by
  intro d'
  show Short 20 d (CC1352P7.run p d openOk)
  unfold CC1352P7.run
  have hr : Short 20 d (CC1352P7.handleReset d) := by
    refine .silent [.flush] ?_ (by simp)
    unfold CC1352P7.handleReset
    dsimp only
    have h1 : ∀ e : CC1352P7.D, e.ipConnect.1.trace = e.trace := by intro e; unfold Dev.ipConnect; split <;> rfl
    have hi : ∀ e : CC1352P7.D, (e.ipConnect).1.trace = e.trace := by
      exact h1

    split
    · rw [hi]; rfl
    · rfl
  (repeat' split) <;> first
    | exact hr.trans (CC1352P7.short_work p _)
    | exact CC1352P7.short_work p d
    | exact .same rfl
    | (unfold CC1352P7.tryOpen; split <;> exact .same rfl)

/-- The first command of a connection. -/
example :
    let d := exec (CC1352P7.step Sess.arm) Sess.cc1352p7 [.run true, .setHostPort (some b!"h") 80 .tcp, .connect, .run true]
    let new := (CC1352P7.run Sess.arm d true).trace.drop d.trace.length
    new = [.cmd b!"ATE0" b!"ATE0", .arg b!"\r\n" b!"\r\n"] ∧ outLen new = 6 ∧
      d.ser.tx.ring.size - d.ser.tx.ring.avail = 80 := by
  decide +kernel

/-- C56, CC1352P7: with at least 20, but too few free bytes in the transmit buffer the driver starts a command, which is cut off. -/
theorem C56_cc1352p7_cut :
    let d := exec (CC1352P7.step Sess.arm) (CC1352P7.init (Ser.init (List.replicate 80 0) (List.replicate 30 0) []) (List.replicate 8 0) (List.replicate 8 0) .tcp
      (List.replicate 61 0) (List.replicate 24 0))
      ([.run true, .setHostPort (some b!"h") 80 .tcp, .connect, .run true, .run true] ++
        [.irq (b!"OK\r\n".map fun c => ⟨some c, false⟩)])
    let new := (CC1352P7.run Sess.arm d true).trace.drop d.trace.length
    let free := d.ser.tx.ring.size - d.ser.tx.ring.avail
    20 ≤ free ∧ free < outLen new ∧ new = [.line b!"OK\r\n",
      .cmd b!"AT+CIPSTART" b!"AT+CIPSTART",
      .arg b!"=\"TCP\",\"" b!"=\"TCP\",\"",
      .arg b!"h" b!"h",
      .arg b!"\"," b!"\",",
      .arg b!"80" b!"80",
      .arg b!"\r\n" b!""] := by
  decide +kernel

/-- C56, Sim7x00: the command of a modem reset is not protected. The modem reports two errors while the transmit buffer
does not get empty; the second reset command is cut off, and the driver takes the reset for done. -/
theorem C56_sim7x00_reset :
    let d := exec (Sim7x00.step Sess.arm) (Sim7x00.init (Ser.init (List.replicate 80 0) (List.replicate 22 0) []) (List.replicate 8 0) (List.replicate 8 0) .tcp
      (List.replicate 61 0) (List.replicate 16 0) (List.replicate 24 0))
      ([.run true, .setApn (some b!"a"), .setHostPort (some b!"h") 80 .tcp, .connect, .run true, .run true] ++
        [.irq (b!"ERROR\r\n".map fun c => ⟨some c, false⟩), .run true, .run true,
        .irq (b!"ERROR\r\n".map fun c => ⟨some c, false⟩), .run true])
    let d' := Sim7x00.run Sess.arm d true
    d.resetPending = true ∧ d'.resetPending = false ∧
      d'.trace.drop d.trace.length = [.flush, .cmd b!"AT+CRESET" b!"AT+CR", .arg b!"\r\n" b!""] := by
  decide +kernel

/-- C56, Espressif: the command of a modem reset is not protected. The modem reports two errors while the transmit buffer
does not get empty; the second reset command is cut off, and the driver takes the reset for done. -/
theorem C56_espressif_reset :
    let d := exec (Espressif.step Sess.arm) (Espressif.init (Ser.init (List.replicate 80 0) (List.replicate 20 0) []) (List.replicate 8 0) (List.replicate 8 0) .tcp
      (List.replicate 61 0) (List.replicate 18 0) .uninit .uninit)
      ([.run true, .setSSID (some b!"network"), .setPassword (some b!"password"), .setHostPort (some b!"h") 80 .tcp, .connect,
      .run true, .run true] ++
        [.irq (b!"ERROR\r\n".map fun c => ⟨some c, false⟩), .run true, .run true,
        .irq (b!"ERROR\r\n".map fun c => ⟨some c, false⟩), .run true])
    let d' := Espressif.run Sess.arm d true
    d.resetPending = true ∧ d'.resetPending = false ∧
      d'.trace.drop d.trace.length = [.flush, .cmd b!"AT+RST" b!"AT+RST", .arg b!"\r\n" b!""] := by
  decide +kernel

end Verif.Props.Whole
