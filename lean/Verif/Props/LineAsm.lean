import Verif.Lemmas.StepInv

/-!
# C38: line assembly

For every history of a driver, from its constructor, with arbitrary bytes arriving at arbitrary times.
`Ser.taken` are the bytes the driver took from the serial device; `reads` concatenates what became of
them: lines handed to the parser, payload handed to the application, payload thrown away.
-/

namespace Verif.Props.LineAsm

open Verif Dev

/-- Memory safety and shape of the lines. `line` is the content of the uninitialised 61 byte line
buffer. `x` is a further condition under which a line may end. -/
def SafeLines {S R X : Type} (x : List Byte → Byte → Prop) (d : Dev S R X) : Prop :=
  -- no access outside the line buffer happened, and the next one will be inside, too
  d.line.oob = false ∧ d.lbFill + 1 < d.line.cells.length ∧ d.line.cells.length = 61 ∧
  -- each line is the next maximal piece of the input
  (∀ l, .line l ∈ d.trace →
    l.length ≤ 60 ∧ (∀ c ∈ l.dropLast, c ≠ nl ∧ c ≠ gt) ∧
    ∃ c, l.getLast? = some c ∧ (c = nl ∨ c = gt ∨ l.length = 60 ∨ x l c)) ∧
  -- the unfinished line has no end yet
  (∀ c ∈ d.line.cells.take d.lbFill, c ≠ nl ∧ c ≠ gt)

theorem safeLines_of_io {S R X : Type} {x : List Byte → Byte → Prop} {d : Dev S R X} (h : Io x d) :
    SafeLines x d := by
  have h1 := h.line.fill
  have h2 := h.line.len
  have h3 : lineMax = 60 := rfl
  refine ⟨h.line.oob, by omega, by omega, ?_, h.shapes.part⟩
  intro l hl
  have hs := h.shapes.lines l hl
  exact ⟨hs.len, hs.init, hs.last⟩

/-- Between two points of a history in which nothing was discarded on purpose (`resetStates()`, a modem
reset, `serialRead()`), the bytes taken from the serial device, preceded by the unfinished line of the
first point, are exactly the lines and payload blocks of the time between, followed by the unfinished
line of the second point. -/
def NothingLost {S R X : Type} (d d' : Dev S R X) : Prop :=
  ∃ new, d'.trace = d.trace ++ new ∧
    ((∀ e ∈ new, isLoss e = false) →
      ∃ t, d'.ser.taken = d.ser.taken ++ t ∧
        d.line.cells.take d.lbFill ++ t = reads new ++ d'.line.cells.take d'.lbFill)

/-! ## Sim7x00 -/

theorem C38_safe_sim7x00 (p : Platform) (rx tx : List Byte) (sched : List (List Hw))
    (rmem wmem : List Byte) (t : ConnType) (line ip id : List Byte) (hl : line.length = 61)
    (ops : List Op) :
    SafeLines (fun _ _ => False)
      (exec (Sim7x00.step p) (Sim7x00.init (Ser.init rx tx sched) rmem wmem t line ip id) ops) := by
  have h := exec_inv (step := Sim7x00.step p) (I := Sim7x00.Inv) (ok := fun _ => True)
    (fun d op _ h => Sim7x00.step_inv p op h) (Sim7x00.inv_init rx tx sched rmem wmem t ip id hl) ops
    (fun _ _ => trivial)
  exact safeLines_of_io h.1

theorem C38_stream_sim7x00 (p : Platform) (rx tx : List Byte) (sched : List (List Hw))
    (rmem wmem : List Byte) (t : ConnType) (line ip id : List Byte) (hl : line.length = 61)
    (ops1 ops2 : List Op) :
    let d := exec (Sim7x00.step p) (Sim7x00.init (Ser.init rx tx sched) rmem wmem t line ip id) ops1
    NothingLost d (exec (Sim7x00.step p) d ops2) := by
  intro d
  have h := exec_inv (step := Sim7x00.step p) (I := Sim7x00.Inv) (ok := fun _ => True)
    (fun d op _ h => Sim7x00.step_inv p op h) (Sim7x00.inv_init rx tx sched rmem wmem t ip id hl) ops1
    (fun _ _ => trivial)
  exact exec_balanced (step := Sim7x00.step p) (I := Sim7x00.Inv) (ok := fun _ => True)
    (fun d op _ h => Sim7x00.step_inv p op h) (fun d op _ h => Sim7x00.step_balanced p op h) h ops2
    (fun _ _ => trivial)

/-- Non-vacuous: input arriving in two pieces, with a run in between, gives a complete line and an
unfinished one. -/
example :
    let d0 := Sim7x00.init (Ser.init (List.replicate 8 0) (List.replicate 40 0) []) [0] [0] .tcp
      (List.replicate 61 0) [] []
    let by_ (l : List Byte) : Op := .irq (l.map fun c => ⟨some c, true⟩)
    let d := exec (Sim7x00.step ⟨true, true⟩) d0
      [.run true, by_ b!"OK", .run true, by_ b!"\r\nA", .run true, .run true]
    d.trace = [.apiReset, .line b!"OK\r\n"] ∧ d.ser.taken = b!"OK\r\nA" ∧ d.lbFill = 1 := by
  decide +kernel

/-! ## Sim800 -/

theorem C38_safe_sim800 (p : Platform) (rx tx : List Byte) (sched : List (List Hw))
    (rmem wmem : List Byte) (t : ConnType) (line ip id : List Byte) (hl : line.length = 61)
    (ops : List Op) :
    SafeLines (fun _ _ => False)
      (exec (Sim800.step p) (Sim800.init (Ser.init rx tx sched) rmem wmem t line ip id) ops) := by
  have h := exec_inv (step := Sim800.step p) (I := Sim800.Inv) (ok := fun _ => True)
    (fun d op _ h => Sim800.step_inv p op h) (Sim800.inv_init rx tx sched rmem wmem t ip id hl) ops
    (fun _ _ => trivial)
  exact safeLines_of_io h.1

theorem C38_stream_sim800 (p : Platform) (rx tx : List Byte) (sched : List (List Hw))
    (rmem wmem : List Byte) (t : ConnType) (line ip id : List Byte) (hl : line.length = 61)
    (ops1 ops2 : List Op) :
    let d := exec (Sim800.step p) (Sim800.init (Ser.init rx tx sched) rmem wmem t line ip id) ops1
    NothingLost d (exec (Sim800.step p) d ops2) := by
  intro d
  have h := exec_inv (step := Sim800.step p) (I := Sim800.Inv) (ok := fun _ => True)
    (fun d op _ h => Sim800.step_inv p op h) (Sim800.inv_init rx tx sched rmem wmem t ip id hl) ops1
    (fun _ _ => trivial)
  exact exec_balanced (step := Sim800.step p) (I := Sim800.Inv) (ok := fun _ => True)
    (fun d op _ h => Sim800.step_inv p op h) (fun d op _ h => Sim800.step_balanced p op h) h ops2
    (fun _ _ => trivial)

/-- Non-vacuous: input arriving in two pieces, with a run in between, gives a complete line and an
unfinished one. -/
example :
    let d0 := Sim800.init (Ser.init (List.replicate 8 0) (List.replicate 40 0) []) [0] [0] .tcp
      (List.replicate 61 0) [] []
    let by_ (l : List Byte) : Op := .irq (l.map fun c => ⟨some c, true⟩)
    let d := exec (Sim800.step ⟨true, true⟩) d0
      [.run true, by_ b!"OK", .run true, by_ b!"\r\nA", .run true, .run true]
    d.trace = [.apiReset, .line b!"OK\r\n"] ∧ d.ser.taken = b!"OK\r\nA" ∧ d.lbFill = 1 := by
  decide +kernel

/-! ## Espressif

A line may also end at the separator of a data header. The stream property is stated for TCP
connections, see `DESIGN.md`. -/

theorem C38_safe_espressif (p : Platform) (rx tx : List Byte) (sched : List (List Hw))
    (rmem wmem : List Byte) (t : ConnType) (line mac : List Byte) (ssid passwd : CPtr)
    (hl : line.length = 61) (ops : List Op) :
    SafeLines (fun l c => c = 58 ∨ (c = 44 ∧ b!"+CIPRECVDATA:" <+: l))
      (exec (Espressif.step p)
        (Espressif.init (Ser.init rx tx sched) rmem wmem t line mac ssid passwd) ops) := by
  have h := exec_inv (step := Espressif.step p) (I := Espressif.Inv) (ok := fun _ => True)
    (fun d op _ h => Espressif.step_inv p op h)
    (Espressif.inv_init rx tx sched rmem wmem t mac ssid passwd hl) ops (fun _ _ => trivial)
  exact safeLines_of_io h

theorem C38_stream_espressif (p : Platform) (rx tx : List Byte) (sched : List (List Hw))
    (rmem wmem line mac : List Byte) (ssid passwd : CPtr) (hl : line.length = 61)
    (ops1 ops2 : List Op)
    (htcp : ∀ op ∈ ops1 ++ ops2, ∀ h q t, op = .setHostPort h q t → t = .tcp) :
    let d := exec (Espressif.step p)
      (Espressif.init (Ser.init rx tx sched) rmem wmem .tcp line mac ssid passwd) ops1
    NothingLost d (exec (Espressif.step p) d ops2) := by
  intro d
  have h := exec_inv (step := Espressif.step p) (I := Espressif.TcpInv) (ok := Espressif.TcpOp)
    (fun d op ho h => Espressif.step_tcpInv p op ho h)
    ⟨Espressif.inv_init rx tx sched rmem wmem .tcp mac ssid passwd hl, .of_zero rfl, rfl⟩ ops1
    (fun op ho => htcp op (List.mem_append_left _ ho))
  exact exec_balanced (step := Espressif.step p) (I := Espressif.TcpInv) (ok := Espressif.TcpOp)
    (fun d op ho h => Espressif.step_tcpInv p op ho h)
    (fun d op _ h => Espressif.step_balanced p op h) h ops2
    (fun op ho => htcp op (List.mem_append_right _ ho))

/-- Non-vacuous, as above. -/
example :
    let d0 := Espressif.init (Ser.init (List.replicate 8 0) (List.replicate 40 0) []) [0] [0] .tcp
      (List.replicate 61 0) [0, 0] .null .null
    let by_ (l : List Byte) : Op := .irq (l.map fun c => ⟨some c, true⟩)
    let d := exec (Espressif.step ⟨true, true⟩) d0
      [.run true, by_ b!"OK", .run true, by_ b!"\r\nA", .run true, .run true]
    d.trace = [.apiReset, .line b!"OK\r\n"] ∧ d.ser.taken = b!"OK\r\nA" ∧ d.lbFill = 1 := by
  decide +kernel

/-! ## CC1352P7 -/

theorem C38_safe_cc1352p7 (p : Platform) (rx tx : List Byte) (sched : List (List Hw))
    (rmem wmem : List Byte) (t : ConnType) (line mac : List Byte) (hl : line.length = 61)
    (ops : List Op) :
    SafeLines (fun _ _ => False)
      (exec (CC1352P7.step p) (CC1352P7.init (Ser.init rx tx sched) rmem wmem t line mac) ops) := by
  have h := exec_inv (step := CC1352P7.step p) (I := CC1352P7.Inv) (ok := fun _ => True)
    (fun d op _ h => CC1352P7.step_inv p op h) (CC1352P7.inv_init rx tx sched rmem wmem t mac hl) ops
    (fun _ _ => trivial)
  exact safeLines_of_io h.1

theorem C38_stream_cc1352p7 (p : Platform) (rx tx : List Byte) (sched : List (List Hw))
    (rmem wmem : List Byte) (t : ConnType) (line mac : List Byte) (hl : line.length = 61)
    (ops1 ops2 : List Op) :
    let d := exec (CC1352P7.step p) (CC1352P7.init (Ser.init rx tx sched) rmem wmem t line mac) ops1
    NothingLost d (exec (CC1352P7.step p) d ops2) := by
  intro d
  have h := exec_inv (step := CC1352P7.step p) (I := CC1352P7.Inv) (ok := fun _ => True)
    (fun d op _ h => CC1352P7.step_inv p op h) (CC1352P7.inv_init rx tx sched rmem wmem t mac hl) ops1
    (fun _ _ => trivial)
  exact exec_balanced (step := CC1352P7.step p) (I := CC1352P7.Inv) (ok := fun _ => True)
    (fun d op _ h => CC1352P7.step_inv p op h) (fun d op _ h => CC1352P7.step_balanced p op h) h ops2
    (fun _ _ => trivial)

/-- Non-vacuous: input arriving in two pieces, with a run in between, gives a complete line and an
unfinished one. -/
example :
    let d0 := CC1352P7.init (Ser.init (List.replicate 8 0) (List.replicate 40 0) []) [0] [0] .tcp
      (List.replicate 61 0) [0, 0]
    let by_ (l : List Byte) : Op := .irq (l.map fun c => ⟨some c, true⟩)
    let d := exec (CC1352P7.step ⟨true, true⟩) d0
      [.run true, by_ b!"OK", .run true, by_ b!"\r\nA", .run true, .run true]
    d.trace = [.apiReset, .line b!"OK\r\n"] ∧ d.ser.taken = b!"OK\r\nA" ∧ d.lbFill = 1 := by
  decide +kernel

end Verif.Props.LineAsm
