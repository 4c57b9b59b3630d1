import Verif.Lemmas.EarlyInv
import Verif.Spec.Sessions

/-!
# Property C73: bytes that arrive early wait for their turn
-/

namespace Verif.Props.Early

open Verif Verif.Spec

/-- **C73** (SIM7x00). Whatever happened before: if a complete line waits, bytes that arrive before the next `run()` have the
same effect as if they arrived after it, provided they fit into the receive buffer and the driver is not about to ask for
a number of bytes or to take them. -/
theorem C73_sim7x00_line (p : Platform) (rx tx : List Byte) (rmem wmem : List Byte) (t : ConnType) (line ip id : List Byte)
    (htx : tx ≠ []) (hl : line.length = lineMax + 1) (ops : List Op) (ok : Bool) (y : List Byte) :
    let d := exec (Sim7x00.step p) (Sim7x00.init (Ser.init rx tx []) rmem wmem t line ip id) ops
    d.ser.canReadLine.2 = true → d.ser.bytesAvailable.2 + y.length ≤ d.ser.readBufferSize →
    d.lineRead = true → d.resetPending = false → d.snd ≠ .sendCiprxget2 → d.snd ≠ .receiving →
    d.rep ≠ .ciprxget2 →
    exec (Sim7x00.step p) d [lands y, .run ok] = exec (Sim7x00.step p) d [.run ok, lands y] := by
  intro d hc hy hlr hp ha hr hrep
  have hi : Sim7x00.Inv d := exec_inv (step := Sim7x00.step p) (ok := fun _ => True) (I := Sim7x00.Inv)
    (fun _ op _ h => Sim7x00.step_inv p op h) (Sim7x00.inv_init rx tx [] rmem wmem t ip id hl) ops (fun _ _ => trivial)
  have hb : Ser.Base d.ser := exec_inv (step := Sim7x00.step p) (ok := fun _ => True) (I := fun d => Ser.Base d.ser)
    (fun _ op _ h => Sim7x00.step_base p op h) (Ser.base_init rx htx).flush ops (fun _ _ => trivial)
  exact Sim7x00.lands_run p ok hi hb y hy hc hlr hp ha hr hrep

/-- C73 (SIM7x00): likewise behind a block of data that has arrived completely. -/
theorem C73_sim7x00_block (p : Platform) (rx tx : List Byte) (rmem wmem : List Byte) (t : ConnType) (line ip id : List Byte)
    (htx : tx ≠ []) (hl : line.length = lineMax + 1) (ops : List Op) (ok : Bool) (y : List Byte) :
    let d := exec (Sim7x00.step p) (Sim7x00.init (Ser.init rx tx []) rmem wmem t line ip id) ops
    d.snd = .receiving → d.bytesToRead ≤ d.ser.bytesAvailable.2 → d.ser.bytesAvailable.2 + y.length ≤ d.ser.readBufferSize →
    d.lineRead = false → d.resetPending = false → d.disconnectPending = false →
    exec (Sim7x00.step p) d [lands y, .run ok] = exec (Sim7x00.step p) d [.run ok, lands y] := by
  intro d hr hn hy hlr hp hd
  have hi : Sim7x00.Inv d := exec_inv (step := Sim7x00.step p) (ok := fun _ => True) (I := Sim7x00.Inv)
    (fun _ op _ h => Sim7x00.step_inv p op h) (Sim7x00.inv_init rx tx [] rmem wmem t ip id hl) ops (fun _ _ => trivial)
  have hb : Ser.Base d.ser := exec_inv (step := Sim7x00.step p) (ok := fun _ => True) (I := fun d => Ser.Base d.ser)
    (fun _ op _ h => Sim7x00.step_base p op h) (Ser.base_init rx htx).flush ops (fun _ _ => trivial)
  exact Sim7x00.lands_block p ok hi hb y hy hlr hp hd hr hn

/-- A driver, connected, after the further operations `u`. -/
def some7x00 (u : List Op) : Sim7x00.D :=
  exec (Sim7x00.step ⟨true, true⟩) (Sim7x00.init (Ser.init (List.replicate 80 0) (List.replicate 80 0) [])
    (List.replicate 100 0) (List.replicate 100 0) .tcp (List.replicate 61 0) (List.replicate 16 0) (List.replicate 24 0)) (Sess.up7x00 .tcp ++ u)

/-- Non-vacuous: connected, a notification waits and another line is on its way. -/
example :
    let d := some7x00 [lands b!"+CIPRXGET: 1,0\r\n"]
    d.ser.canReadLine.2 = true ∧ d.ser.bytesAvailable.2 + b!"\r\n+X: 1\r\n".length ≤ d.ser.readBufferSize ∧
    d.lineRead = true ∧ d.resetPending = false ∧ d.snd ≠ .sendCiprxget2 ∧ d.snd ≠ .receiving ∧ d.rep ≠ .ciprxget2 ∧
    (exec (Sim7x00.step ⟨true, true⟩) d [lands b!"\r\n+X: 1\r\n", .run true]).dataPending = false := by decide +kernel

/-- Non-vacuous: a block waits, the lines behind it as well. -/
example :
    let d := some7x00 ((Sess.talk b!"+CIPRXGET: 1,0\r\n" ++ Sess.talk b!"+CIPRXGET: 4,0,5\r\n" ++ Sess.talk b!"OK\r\n") ++ [lands b!"+CIPRXGET: 2,0,5,0\r\n", .run true, lands b!"hello"])
    d.snd = .receiving ∧ d.bytesToRead ≤ d.ser.bytesAvailable.2 ∧ d.ser.bytesAvailable.2 + b!"\r\nOK\r\n".length ≤ d.ser.readBufferSize ∧
    d.lineRead = false ∧ d.resetPending = false ∧ d.disconnectPending = false ∧
    ((exec (Sim7x00.step ⟨true, true⟩) d [lands b!"\r\nOK\r\n", .run true]).read 10).2 = b!"hello" := by decide +kernel

/-- C73 (SIM7x00): when the driver is about to ask for data, bytes that arrive early change the amount it asks for; the
restriction is needed. -/
theorem C73_sim7x00_ask :
    let d := some7x00 ((Sess.talk b!"+CIPRXGET: 1,0\r\n" ++ Sess.talk b!"+CIPRXGET: 4,0,90\r\n" ++ [lands b!"OK\r\n"]) ++ [lands b!"\r\n+X: 1\r\n"])
    d.ser.canReadLine.2 = true ∧ d.snd = .sendCiprxget2 ∧
    d.ser.bytesAvailable.2 + b!"\r\n+X: 1\r\n".length ≤ d.ser.readBufferSize ∧
    (exec (Sim7x00.step ⟨true, true⟩) d [lands b!"\r\n+X: 1\r\n", .run true]).ser.sent ≠
      (exec (Sim7x00.step ⟨true, true⟩) d [.run true, lands b!"\r\n+X: 1\r\n"]).ser.sent := by decide +kernel

/-- **C73** (SIM800). Whatever happened before: if a complete line waits, bytes that arrive before the next `run()` have the
same effect as if they arrived after it, provided they fit into the receive buffer and the driver is not about to ask for
a number of bytes or to take them. -/
theorem C73_sim800_line (p : Platform) (rx tx : List Byte) (rmem wmem : List Byte) (t : ConnType) (line ip id : List Byte)
    (htx : tx ≠ []) (hl : line.length = lineMax + 1) (ops : List Op) (ok : Bool) (y : List Byte) :
    let d := exec (Sim800.step p) (Sim800.init (Ser.init rx tx []) rmem wmem t line ip id) ops
    d.ser.canReadLine.2 = true → d.ser.bytesAvailable.2 + y.length ≤ d.ser.readBufferSize →
    d.lineRead = true → d.resetPending = false → d.snd ≠ .sendCiprxget2 → d.snd ≠ .receiving →
    d.rep ≠ .ciprxget2 →
    exec (Sim800.step p) d [lands y, .run ok] = exec (Sim800.step p) d [.run ok, lands y] := by
  intro d hc hy hlr hp ha hr hrep
  have hi : Sim800.Inv d := exec_inv (step := Sim800.step p) (ok := fun _ => True) (I := Sim800.Inv)
    (fun _ op _ h => Sim800.step_inv p op h) (Sim800.inv_init rx tx [] rmem wmem t ip id hl) ops (fun _ _ => trivial)
  have hb : Ser.Base d.ser := exec_inv (step := Sim800.step p) (ok := fun _ => True) (I := fun d => Ser.Base d.ser)
    (fun _ op _ h => Sim800.step_base p op h) (Ser.base_init rx htx).flush ops (fun _ _ => trivial)
  exact Sim800.lands_run p ok hi hb y hy hc hlr hp ha hr hrep

/-- C73 (SIM800): likewise behind a block of data that has arrived completely. -/
theorem C73_sim800_block (p : Platform) (rx tx : List Byte) (rmem wmem : List Byte) (t : ConnType) (line ip id : List Byte)
    (htx : tx ≠ []) (hl : line.length = lineMax + 1) (ops : List Op) (ok : Bool) (y : List Byte) :
    let d := exec (Sim800.step p) (Sim800.init (Ser.init rx tx []) rmem wmem t line ip id) ops
    d.snd = .receiving → d.bytesToRead ≤ d.ser.bytesAvailable.2 → d.ser.bytesAvailable.2 + y.length ≤ d.ser.readBufferSize →
    d.lineRead = false → d.resetPending = false → d.disconnectPending = false →
    exec (Sim800.step p) d [lands y, .run ok] = exec (Sim800.step p) d [.run ok, lands y] := by
  intro d hr hn hy hlr hp hd
  have hi : Sim800.Inv d := exec_inv (step := Sim800.step p) (ok := fun _ => True) (I := Sim800.Inv)
    (fun _ op _ h => Sim800.step_inv p op h) (Sim800.inv_init rx tx [] rmem wmem t ip id hl) ops (fun _ _ => trivial)
  have hb : Ser.Base d.ser := exec_inv (step := Sim800.step p) (ok := fun _ => True) (I := fun d => Ser.Base d.ser)
    (fun _ op _ h => Sim800.step_base p op h) (Ser.base_init rx htx).flush ops (fun _ _ => trivial)
  exact Sim800.lands_block p ok hi hb y hy hlr hp hd hr hn

/-- A driver, connected, after the further operations `u`. -/
def some800 (u : List Op) : Sim800.D :=
  exec (Sim800.step ⟨true, true⟩) (Sim800.init (Ser.init (List.replicate 80 0) (List.replicate 80 0) [])
    (List.replicate 100 0) (List.replicate 100 0) .tcp (List.replicate 61 0) (List.replicate 16 0) (List.replicate 24 0)) (Sess.up800 .tcp ++ u)

/-- Non-vacuous: connected, a notification waits and another line is on its way. -/
example :
    let d := some800 [lands b!"+CIPRXGET: 1,0\r\n"]
    d.ser.canReadLine.2 = true ∧ d.ser.bytesAvailable.2 + b!"\r\n+X: 1\r\n".length ≤ d.ser.readBufferSize ∧
    d.lineRead = true ∧ d.resetPending = false ∧ d.snd ≠ .sendCiprxget2 ∧ d.snd ≠ .receiving ∧ d.rep ≠ .ciprxget2 ∧
    (exec (Sim800.step ⟨true, true⟩) d [lands b!"\r\n+X: 1\r\n", .run true]).dataPending = false := by decide +kernel

/-- Non-vacuous: a block waits, the lines behind it as well. -/
example :
    let d := some800 ((Sess.talk b!"+CIPRXGET: 1,0\r\n" ++ Sess.talk b!"+CIPRXGET: 4,0,5\r\n" ++ Sess.talk b!"OK\r\n") ++ [lands b!"+CIPRXGET: 2,0,5,0\r\n", .run true, lands b!"hello"])
    d.snd = .receiving ∧ d.bytesToRead ≤ d.ser.bytesAvailable.2 ∧ d.ser.bytesAvailable.2 + b!"\r\nOK\r\n".length ≤ d.ser.readBufferSize ∧
    d.lineRead = false ∧ d.resetPending = false ∧ d.disconnectPending = false ∧
    ((exec (Sim800.step ⟨true, true⟩) d [lands b!"\r\nOK\r\n", .run true]).read 10).2 = b!"hello" := by decide +kernel

/-- C73 (SIM800): when the driver is about to ask for data, bytes that arrive early change the amount it asks for; the
restriction is needed. -/
theorem C73_sim800_ask :
    let d := some800 ((Sess.talk b!"+CIPRXGET: 1,0\r\n" ++ Sess.talk b!"+CIPRXGET: 4,0,90\r\n" ++ [lands b!"OK\r\n"]) ++ [lands b!"\r\n+X: 1\r\n"])
    d.ser.canReadLine.2 = true ∧ d.snd = .sendCiprxget2 ∧
    d.ser.bytesAvailable.2 + b!"\r\n+X: 1\r\n".length ≤ d.ser.readBufferSize ∧
    (exec (Sim800.step ⟨true, true⟩) d [lands b!"\r\n+X: 1\r\n", .run true]).ser.sent ≠
      (exec (Sim800.step ⟨true, true⟩) d [.run true, lands b!"\r\n+X: 1\r\n"]).ser.sent := by decide +kernel

/-- **C73** (Espressif). Whatever happened before: if a complete line waits, bytes that arrive before the next `run()` have the
same effect as if they arrived after it, provided they fit into the receive buffer and the driver is not about to ask for
a number of bytes or to take them. -/
theorem C73_espressif_line (p : Platform) (rx tx : List Byte) (rmem wmem : List Byte) (t : ConnType) (line mac : List Byte) (ssid passwd : CPtr)
    (htx : tx ≠ []) (hl : line.length = lineMax + 1) (ops : List Op) (ok : Bool) (y : List Byte) :
    let d := exec (Espressif.step p) (Espressif.init (Ser.init rx tx []) rmem wmem t line mac ssid passwd) ops
    d.ser.canReadLine.2 = true → d.ser.bytesAvailable.2 + y.length ≤ d.ser.readBufferSize →
    d.lineRead = true → d.resetPending = false → d.snd ≠ .sendCiprecvdata → d.snd ≠ .receiving →
    d.rep ≠ .waitCiprecvdata → d.rep ≠ .parseStateCiprecvdata →
    exec (Espressif.step p) d [lands y, .run ok] = exec (Espressif.step p) d [.run ok, lands y] := by
  intro d hc hy hlr hp ha hr h1 h2
  have hi : Espressif.Inv d := exec_inv (step := Espressif.step p) (ok := fun _ => True) (I := Espressif.Inv)
    (fun _ op _ h => Espressif.step_inv p op h) (Espressif.inv_init rx tx [] rmem wmem t mac ssid passwd hl) ops (fun _ _ => trivial)
  have hb : Ser.Base d.ser := exec_inv (step := Espressif.step p) (ok := fun _ => True) (I := fun d => Ser.Base d.ser)
    (fun _ op _ h => Espressif.step_base p op h) (Ser.base_init rx htx).flush ops (fun _ _ => trivial)
  exact Espressif.lands_run p ok hi hb y hy hc hlr hp ha hr h1 h2

/-- C73 (Espressif): likewise behind a block of data that has arrived completely. -/
theorem C73_espressif_block (p : Platform) (rx tx : List Byte) (rmem wmem : List Byte) (t : ConnType) (line mac : List Byte) (ssid passwd : CPtr)
    (htx : tx ≠ []) (hl : line.length = lineMax + 1) (ops : List Op) (ok : Bool) (y : List Byte) :
    let d := exec (Espressif.step p) (Espressif.init (Ser.init rx tx []) rmem wmem t line mac ssid passwd) ops
    d.snd = .receiving → d.bytesToRead ≤ d.ser.bytesAvailable.2 → d.ser.bytesAvailable.2 + y.length ≤ d.ser.readBufferSize →
    d.lineRead = false → d.resetPending = false → d.disconnectPending = false →
    exec (Espressif.step p) d [lands y, .run ok] = exec (Espressif.step p) d [.run ok, lands y] := by
  intro d hr hn hy hlr hp hd
  have hi : Espressif.Inv d := exec_inv (step := Espressif.step p) (ok := fun _ => True) (I := Espressif.Inv)
    (fun _ op _ h => Espressif.step_inv p op h) (Espressif.inv_init rx tx [] rmem wmem t mac ssid passwd hl) ops (fun _ _ => trivial)
  have hb : Ser.Base d.ser := exec_inv (step := Espressif.step p) (ok := fun _ => True) (I := fun d => Ser.Base d.ser)
    (fun _ op _ h => Espressif.step_base p op h) (Ser.base_init rx htx).flush ops (fun _ _ => trivial)
  exact Espressif.lands_block p ok hi hb y hy hlr hp hd hr hn

/-- A driver, connected, after the further operations `u`. -/
def someEsp (u : List Op) : Espressif.D :=
  exec (Espressif.step ⟨true, true⟩) (Espressif.init (Ser.init (List.replicate 80 0) (List.replicate 80 0) [])
    (List.replicate 100 0) (List.replicate 100 0) .tcp (List.replicate 61 0) (List.replicate 18 0) .uninit .uninit) (Sess.upEsp .tcp ++ u)

/-- Non-vacuous: connected, a notification waits and another line is on its way. -/
example :
    let d := someEsp [lands b!"+IPD,5\r\n"]
    d.ser.canReadLine.2 = true ∧ d.ser.bytesAvailable.2 + b!"\r\n+X: 1\r\n".length ≤ d.ser.readBufferSize ∧
    d.lineRead = true ∧ d.resetPending = false ∧ d.snd ≠ .sendCiprecvdata ∧ d.snd ≠ .receiving ∧ d.rep ≠ .waitCiprecvdata ∧ d.rep ≠ .parseStateCiprecvdata ∧
    (exec (Espressif.step ⟨true, true⟩) d [lands b!"\r\n+X: 1\r\n", .run true]).dataPending = false := by decide +kernel

/-- Non-vacuous: a block waits, the lines behind it as well. -/
example :
    let d := someEsp ((Sess.talk b!"+IPD,5\r\n" ++ [.run true]) ++ [lands b!"+CIPRECVDATA,5:", .run true, lands b!"hello"])
    d.snd = .receiving ∧ d.bytesToRead ≤ d.ser.bytesAvailable.2 ∧ d.ser.bytesAvailable.2 + b!"\r\nOK\r\n".length ≤ d.ser.readBufferSize ∧
    d.lineRead = false ∧ d.resetPending = false ∧ d.disconnectPending = false ∧
    ((exec (Espressif.step ⟨true, true⟩) d [lands b!"\r\nOK\r\n", .run true]).read 10).2 = b!"hello" := by decide +kernel

/-- C73 (Espressif): when the driver is about to ask for data, bytes that arrive early change the amount it asks for; the
restriction is needed. -/
theorem C73_espressif_ask :
    let d := someEsp ((Sess.say b!"+IPD,90\r\n" ++ [.run true]) ++ [lands b!"\r\n+X: 1\r\n"])
    d.ser.canReadLine.2 = true ∧ d.snd = .sendCiprecvdata ∧
    d.ser.bytesAvailable.2 + b!"\r\n+X: 1\r\n".length ≤ d.ser.readBufferSize ∧
    (exec (Espressif.step ⟨true, true⟩) d [lands b!"\r\n+X: 1\r\n", .run true]).ser.sent ≠
      (exec (Espressif.step ⟨true, true⟩) d [.run true, lands b!"\r\n+X: 1\r\n"]).ser.sent := by decide +kernel

/-- **C73** (CC1352P7). Whatever happened before: if a complete line waits, bytes that arrive before the next `run()` have the
same effect as if they arrived after it, provided they fit into the receive buffer and the driver is not about to ask for
a number of bytes or to take them. -/
theorem C73_cc1352p7_line (p : Platform) (rx tx : List Byte) (rmem wmem : List Byte) (t : ConnType) (line mac : List Byte)
    (htx : tx ≠ []) (hl : line.length = lineMax + 1) (ops : List Op) (ok : Bool) (y : List Byte) :
    let d := exec (CC1352P7.step p) (CC1352P7.init (Ser.init rx tx []) rmem wmem t line mac) ops
    d.ser.canReadLine.2 = true → d.ser.bytesAvailable.2 + y.length ≤ d.ser.readBufferSize →
    d.lineRead = true → d.resetPending = false → d.snd ≠ .sendCiprecvdata → d.snd ≠ .receiving →
    d.rep ≠ .parseStateCiprecvdata →
    exec (CC1352P7.step p) d [lands y, .run ok] = exec (CC1352P7.step p) d [.run ok, lands y] := by
  intro d hc hy hlr hp ha hr h1
  have hi : CC1352P7.Inv d := exec_inv (step := CC1352P7.step p) (ok := fun _ => True) (I := CC1352P7.Inv)
    (fun _ op _ h => CC1352P7.step_inv p op h) (CC1352P7.inv_init rx tx [] rmem wmem t mac hl) ops (fun _ _ => trivial)
  have hb : Ser.Base d.ser := exec_inv (step := CC1352P7.step p) (ok := fun _ => True) (I := fun d => Ser.Base d.ser)
    (fun _ op _ h => CC1352P7.step_base p op h) (Ser.base_init rx htx).flush ops (fun _ _ => trivial)
  exact CC1352P7.lands_run p ok hi hb y hy hc hlr hp ha hr h1

/-- C73 (CC1352P7): likewise behind a block of data that has arrived completely. -/
theorem C73_cc1352p7_block (p : Platform) (rx tx : List Byte) (rmem wmem : List Byte) (t : ConnType) (line mac : List Byte)
    (htx : tx ≠ []) (hl : line.length = lineMax + 1) (ops : List Op) (ok : Bool) (y : List Byte) :
    let d := exec (CC1352P7.step p) (CC1352P7.init (Ser.init rx tx []) rmem wmem t line mac) ops
    d.snd = .receiving → d.bytesToRead ≤ d.ser.bytesAvailable.2 → d.ser.bytesAvailable.2 + y.length ≤ d.ser.readBufferSize →
    d.lineRead = false → d.resetPending = false → d.disconnectPending = false →
    exec (CC1352P7.step p) d [lands y, .run ok] = exec (CC1352P7.step p) d [.run ok, lands y] := by
  intro d hr hn hy hlr hp hd
  have hi : CC1352P7.Inv d := exec_inv (step := CC1352P7.step p) (ok := fun _ => True) (I := CC1352P7.Inv)
    (fun _ op _ h => CC1352P7.step_inv p op h) (CC1352P7.inv_init rx tx [] rmem wmem t mac hl) ops (fun _ _ => trivial)
  have hb : Ser.Base d.ser := exec_inv (step := CC1352P7.step p) (ok := fun _ => True) (I := fun d => Ser.Base d.ser)
    (fun _ op _ h => CC1352P7.step_base p op h) (Ser.base_init rx htx).flush ops (fun _ _ => trivial)
  exact CC1352P7.lands_block p ok hi hb y hy hlr hp hd hr hn

/-- A driver, connected, after the further operations `u`. -/
def someCC (u : List Op) : CC1352P7.D :=
  exec (CC1352P7.step ⟨true, true⟩) (CC1352P7.init (Ser.init (List.replicate 80 0) (List.replicate 80 0) [])
    (List.replicate 100 0) (List.replicate 100 0) .tcp (List.replicate 61 0) (List.replicate 24 0)) (Sess.upCC .tcp ++ u)

/-- Non-vacuous: connected, a notification waits and another line is on its way. -/
example :
    let d := someCC [lands b!"+IPD,5\r\n"]
    d.ser.canReadLine.2 = true ∧ d.ser.bytesAvailable.2 + b!"\r\n+X: 1\r\n".length ≤ d.ser.readBufferSize ∧
    d.lineRead = true ∧ d.resetPending = false ∧ d.snd ≠ .sendCiprecvdata ∧ d.snd ≠ .receiving ∧ d.rep ≠ .parseStateCiprecvdata ∧
    (exec (CC1352P7.step ⟨true, true⟩) d [lands b!"\r\n+X: 1\r\n", .run true]).dataPending = false := by decide +kernel

/-- Non-vacuous: a block waits, the lines behind it as well. -/
example :
    let d := someCC ((Sess.talk b!"+IPD,5\r\n" ++ [.run true]) ++ [lands b!"+CIPRECVDATA,5\r\n", .run true, lands b!"hello"])
    d.snd = .receiving ∧ d.bytesToRead ≤ d.ser.bytesAvailable.2 ∧ d.ser.bytesAvailable.2 + b!"\r\nOK\r\n".length ≤ d.ser.readBufferSize ∧
    d.lineRead = false ∧ d.resetPending = false ∧ d.disconnectPending = false ∧
    ((exec (CC1352P7.step ⟨true, true⟩) d [lands b!"\r\nOK\r\n", .run true]).read 10).2 = b!"hello" := by decide +kernel

/-- C73 (CC1352P7): when the driver is about to ask for data, bytes that arrive early change the amount it asks for; the
restriction is needed. -/
theorem C73_cc1352p7_ask :
    let d := someCC ((Sess.say b!"+IPD,90\r\n" ++ [.run true]) ++ [lands b!"\r\n+X: 1\r\n"])
    d.ser.canReadLine.2 = true ∧ d.snd = .sendCiprecvdata ∧
    d.ser.bytesAvailable.2 + b!"\r\n+X: 1\r\n".length ≤ d.ser.readBufferSize ∧
    (exec (CC1352P7.step ⟨true, true⟩) d [lands b!"\r\n+X: 1\r\n", .run true]).ser.sent ≠
      (exec (CC1352P7.step ⟨true, true⟩) d [.run true, lands b!"\r\n+X: 1\r\n"]).ser.sent := by decide +kernel

end Verif.Props.Early
