import Verif.Lemmas.UnixSerial
import Verif.Props.PortConfig

/-!
# Property C96: the bytes that go through a Linux serial port
-/

namespace Verif.Props.UnixSerial

open Verif Verif.PortConfig Verif.UnixSerial Verif.Props.Serial

/-- Calls, and what happens in between: the task of the port is run, bytes come in. -/
inductive UOp
  | api (op : SOp)
  | opens (o : Outcome)
  | poll (o : Outcome)
  | close
  | set (baud : UInt32) (bits : UInt8)
  | run (ok : Bool)
  | deliver (cs : List Byte)

/-- One of them: the new state, and the bytes it reports as accepted. -/
def step (u : Unix) : UOp → Unix × List Byte
  | .api op => let r := call u.ser op; ({ u with ser := r.1 }, reported op r.2)
  | .opens o => (u.opens o, [])
  | .poll o => (u.poll o, [])
  | .close => (u.close, [])
  | .set b n => (u.set b n, [])
  | .run ok => (u.run ok, [])
  | .deliver cs => (u.deliver cs, [])

/-- A history: the state, and all bytes reported as accepted. -/
def steps (u : Unix) : List UOp → Unix × List Byte
  | [] => (u, [])
  | op :: ops =>
    let r := step u op
    let q := steps r.1 ops
    (q.1, r.2 ++ q.2)

/-- `read()` and `write(c)` without size are called only if there is a byte, or space. -/
def Fair (u : Unix) : List UOp → Prop
  | [] => True
  | op :: ops => (match op with | .api o => Pre u.ser o | _ => True) ∧ Fair (step u op).1 ops

instance instDecFair (u : Unix) : (ops : List UOp) → Decidable (Fair u ops)
  | [] => inferInstanceAs (Decidable True)
  | op :: ops =>
    have := instDecFair (step u op).1 ops
    match op with
    | .api o => inferInstanceAs (Decidable (Pre u.ser o ∧ _))
    | .opens _ | .poll _ | .close | .set _ _ | .run _ | .deliver _ => inferInstanceAs (Decidable (True ∧ _))

/-- The bytes that came in. -/
def delivered : List UOp → List Byte
  | [] => []
  | .deliver cs :: ops => cs ++ delivered ops
  | _ :: ops => delivered ops

/-- Calls which open the port. -/
def Opening : UOp → Prop
  | .opens _ => True
  | .poll _ => True
  | _ => False

/-- Only the drivers open the port, and the terminal, if it is one, can be configured. -/
def Tame : UOp → Prop
  | .opens _ => False
  | .poll o => o = .noFile ∨ o = .notTty ∨ o = .success
  | _ => True

/-- States of an object which is used like this. -/
def Reached (u : Unix) : Prop :=
  ∃ rmem wmem ops, Fair (Unix.init rmem wmem) ops ∧ u = (steps (Unix.init rmem wmem) ops).1

theorem ok_step {u : Unix} {rq tq : List Byte} (h : Ser.Rep u.ser rq tq) (hs : u.ser.sched = []) (op : UOp)
    (hf : match op with | .api o => Pre u.ser o | _ => True) :
    (∃ rq' tq', Ser.Rep (step u op).1.ser rq' tq') ∧ (step u op).1.ser.sched = [] ∧
      (step u op).1.ser.sent = u.ser.sent ++ (step u op).2 := by
  cases op with
  | api o =>
    obtain ⟨r, t, h1, h2, _, _⟩ := call_rep h o hf
    exact ⟨⟨r, t, h1⟩, (quiet_call hs o).sched, h2⟩
  | opens o => exact ⟨⟨rq, tq, h⟩, hs, by simp [step, Unix.opens]⟩
  | poll o =>
    have e : (u.poll o).ser = u.ser := by unfold Unix.poll; split <;> rfl
    show (∃ rq' tq', Ser.Rep (u.poll o).ser rq' tq') ∧ (u.poll o).ser.sched = [] ∧ (u.poll o).ser.sent = _
    rw [e]
    exact ⟨⟨rq, tq, h⟩, hs, by simp [step]⟩
  | close => exact ⟨⟨rq, tq, h⟩, hs, by simp [step, Unix.close]⟩
  | set b n => exact ⟨⟨rq, tq, h⟩, hs, by simp [step, Unix.set]⟩
  | deliver cs => exact ⟨⟨rq, tq, h⟩, hs, by simp [step, Unix.deliver]⟩
  | run ok =>
    have e : (u.run ok).ser.sent = u.ser.sent := by
      unfold Unix.run Unix.rawRead
      split <;> exact (Ser.frame_transfer _ _).sent
    refine ⟨?_, ?_, by simp [step, e]⟩
    · cases hfd : u.port.fd with
      | none => exact ⟨_, _, (run_none h ok hfd).1⟩
      | some f => exact ⟨_, _, (run_some h ok hfd).1⟩
    · cases hfd : u.port.fd with
      | none => exact (run_none h ok hfd).2.2.2.2.2.trans hs
      | some f => exact (run_some h ok hfd).2.2.2.2.2.trans hs

theorem ok_steps (ops : List UOp) {u : Unix} {rq tq : List Byte} (h : Ser.Rep u.ser rq tq)
    (hs : u.ser.sched = []) (hf : Fair u ops) :
    (∃ rq' tq', Ser.Rep (steps u ops).1.ser rq' tq') ∧ (steps u ops).1.ser.sched = [] ∧
      (steps u ops).1.ser.sent = u.ser.sent ++ (steps u ops).2 := by
  induction ops generalizing u rq tq with
  | nil => exact ⟨⟨rq, tq, h⟩, hs, by simp [steps]⟩
  | cons op ops ih =>
    obtain ⟨⟨r, t, h1⟩, h2, h3⟩ := ok_step h hs op hf.1
    obtain ⟨k1, k2, k3⟩ := ih h1 h2 hf.2
    refine ⟨k1, k2, ?_⟩
    simp only [steps]
    rw [k3, h3]; simp

theorem Reached.rep {u : Unix} (h : Reached u) :
    Ser.Rep u.ser (buffered u.ser.rx) (buffered u.ser.tx) ∧ u.ser.sched = [] := by
  obtain ⟨rmem, wmem, ops, hf, rfl⟩ := h
  obtain ⟨⟨r, t, h1⟩, h2, _⟩ := ok_steps ops (Ser.rep_init rmem wmem []) rfl hf
  refine ⟨?_, h2⟩
  rw [rep_buffered h1.rx, rep_buffered h1.tx]
  exact h1

/-- **C96.** Whatever the port does in between (opened, closed, opened again, the opening fails): what
the operating system accepted, followed by what is still buffered, is exactly what the write calls
reported as accepted; `writeBufferProcessed()` says whether that is all of it. -/
theorem C96_out (rmem wmem : List Byte) (ops : List UOp) (hf : Fair (Unix.init rmem wmem) ops) :
    let r := steps (Unix.init rmem wmem) ops
    r.1.ser.wire ++ buffered r.1.ser.tx = r.2 ∧
    (r.1.writeBufferProcessed = true ↔ r.1.ser.wire = r.2) := by
  intro r
  obtain ⟨⟨rq, tq, h⟩, _, hs⟩ := ok_steps ops (Ser.rep_init rmem wmem []) rfl hf
  have e : r.1.ser.wire ++ tq = r.2 := h.txs.trans (hs.trans rfl)
  refine ⟨by rw [rep_buffered h.tx]; exact e, ?_⟩
  have hz : r.1.writeBufferProcessed = true ↔ tq = [] := by
    unfold Unix.writeBufferProcessed Ring.isEmpty
    rw [h.tx.ring.av]
    simp
  rw [hz]
  constructor
  · intro hn; rw [hn] at e; simpa using e
  · intro hw
    rw [hw] at e
    simpa using e

/-- A step, seen from the operating system: what it handed over and what it still holds. -/
theorem step_in {u : Unix} {rq tq : List Byte} (h : Ser.Rep u.ser rq tq) (hs : u.ser.sched = []) (op : UOp) :
    (step u op).1.ser.arrived ++ (step u op).1.queue = u.ser.arrived ++ u.queue ++ delivered [op] ∨
    (Opening op ∧ (step u op).1.ser.arrived = u.ser.arrived ∧
      ((step u op).1.queue = [] ∨ (step u op).1.queue = u.queue)) := by
  cases op with
  | api o => left; simp [step, delivered, (quiet_call hs o).arrived]
  | opens o =>
    right
    refine ⟨trivial, rfl, ?_⟩
    simp only [step, Unix.opens]
    split <;> simp
  | poll o =>
    right
    refine ⟨trivial, ?_⟩
    simp only [step, Unix.poll]
    split
    · exact ⟨rfl, .inr rfl⟩
    · refine ⟨rfl, ?_⟩
      simp only [Unix.opens]
      split <;> simp
  | close => left; simp [step, delivered, Unix.close]
  | set b n => left; simp [step, delivered, Unix.set]
  | deliver cs => left; simp [step, delivered, Unix.deliver]
  | run ok =>
    left
    cases hfd : u.port.fd with
    | none =>
      obtain ⟨_, _, h3, h4, _⟩ := run_none h ok hfd
      simp [step, delivered, h3, h4]
    | some f =>
      obtain ⟨_, _, h3, h4, _⟩ := run_some h ok hfd
      simp only [step, delivered, h3, h4]
      rw [List.append_assoc, List.take_append_drop, List.append_nil]

theorem delivered_cons (op : UOp) (ops : List UOp) : delivered (op :: ops) = delivered [op] ++ delivered ops := by
  cases op <;> simp [delivered]

theorem delivered_opening {op : UOp} (h : Opening op) : delivered [op] = [] := by
  cases op <;> first | rfl | exact absurd h id

/-- Without an opening in between, no byte the operating system has for the port is lost, repeated or
reordered on the way to the buffer: those handed over, then those it still holds. -/
theorem C96_in {u : Unix} (hu : Reached u) (ops : List UOp) (hf : Fair u ops) (ho : ∀ op ∈ ops, ¬ Opening op) :
    (steps u ops).1.ser.arrived ++ (steps u ops).1.queue = u.ser.arrived ++ u.queue ++ delivered ops := by
  obtain ⟨h, hs⟩ := hu.rep
  suffices H : ∀ (ops : List UOp) (u : Unix) (rq tq : List Byte), Ser.Rep u.ser rq tq → u.ser.sched = [] → Fair u ops →
      (∀ op ∈ ops, ¬ Opening op) →
      (steps u ops).1.ser.arrived ++ (steps u ops).1.queue = u.ser.arrived ++ u.queue ++ delivered ops from
    H ops u _ _ h hs hf ho
  intro ops
  induction ops with
  | nil => intro u rq tq _ _ _ _; simp [steps, delivered]
  | cons op ops ih =>
    intro u rq tq h hs hf ho
    obtain ⟨⟨r, t, h1⟩, h2, _⟩ := ok_step h hs op hf.1
    have e := ih _ r t h1 h2 hf.2 (fun x hx => ho x (by simp [hx]))
    rcases step_in h hs op with k | k
    · simp only [steps]
      rw [e, k, delivered_cons op ops]; simp
    · exact absurd k.1 (ho op (by simp))

/-- Over every history: what was handed over is a part of what came in, in order. (An opening discards
what the operating system holds.) -/
theorem C96_in_all (rmem wmem : List Byte) (ops : List UOp) (hf : Fair (Unix.init rmem wmem) ops) :
    let r := steps (Unix.init rmem wmem) ops
    (r.1.ser.arrived ++ r.1.queue).Sublist (delivered ops) := by
  intro r
  suffices H : ∀ (ops : List UOp) (u : Unix) (rq tq : List Byte), Ser.Rep u.ser rq tq → u.ser.sched = [] → Fair u ops →
      ((steps u ops).1.ser.arrived ++ (steps u ops).1.queue).Sublist (u.ser.arrived ++ u.queue ++ delivered ops) from
    H ops _ _ _ (Ser.rep_init rmem wmem []) rfl hf
  intro ops
  induction ops with
  | nil => intro u rq tq _ _ _; simp [steps, delivered]
  | cons op ops ih =>
    intro u rq tq h hs hf
    obtain ⟨⟨r, t, h1⟩, h2, _⟩ := ok_step h hs op hf.1
    have e := ih _ r t h1 h2 hf.2
    rw [delivered_cons op ops, ← List.append_assoc]
    refine e.trans (List.Sublist.append ?_ (List.Sublist.refl _))
    rcases step_in h hs op with k | ⟨ko, k1, k2⟩
    · rw [k]; exact List.Sublist.refl _
    · rw [k1, delivered_opening ko, List.append_nil]
      rcases k2 with k2 | k2
      · rw [k2]; simp
      · rw [k2]; exact List.Sublist.refl _

theorem tidy_steps (ops : List UOp) {u : Unix} (h : PortConfig.Tidy u.port) (ht : ∀ op ∈ ops, Tame op) :
    PortConfig.Tidy (steps u ops).1.port := by
  induction ops generalizing u with
  | nil => exact h
  | cons op ops ih =>
    refine ih ?_ (fun x hx => ht x (by simp [hx]))
    have hop := ht op (by simp)
    cases op with
    | api o => exact h
    | opens o => exact absurd hop id
    | close => exact PortConfig.tidy_step h .close trivial
    | set b n => exact PortConfig.tidy_step h (.set b n) trivial
    | deliver cs => exact h
    | run ok =>
      have e : (u.run ok).port = u.port := by
        unfold Unix.run Unix.rawRead
        split <;> rfl
      show PortConfig.Tidy (u.run ok).port
      rw [e]; exact h
    | poll o =>
      have e : (u.poll o).port = u.port.step (.poll o) := by
        unfold Unix.poll Port.step
        dsimp only
        split <;> rfl
      show PortConfig.Tidy (u.poll o).port
      rw [e]
      exact PortConfig.tidy_step h (.poll o) hop

/-- While `isOpen()` says false nothing goes in or out: running the task of the port has no effect
(provided only the drivers open it, and the terminal can be configured). -/
theorem C96_closed (rmem wmem : List Byte) (ops : List UOp) (hf : Fair (Unix.init rmem wmem) ops)
    (ht : ∀ op ∈ ops, Tame op) (ok : Bool) :
    let u := (steps (Unix.init rmem wmem) ops).1
    u.port.isOpen = false →
    (u.run ok).ser.wire = u.ser.wire ∧ (u.run ok).ser.arrived = u.ser.arrived ∧ (u.run ok).queue = u.queue ∧
    buffered (u.run ok).ser.rx = buffered u.ser.rx ∧ buffered (u.run ok).ser.tx = buffered u.ser.tx := by
  intro u hc
  have hR : Reached u := ⟨rmem, wmem, ops, hf, rfl⟩
  have hT : PortConfig.Tidy u.port :=
    tidy_steps ops ⟨fun h => absurd h (by simp [Unix.init, Port.init]), fun _ => ⟨rfl, rfl⟩⟩ ht
  obtain ⟨h1, h2, h3, h4, _⟩ := run_none hR.rep.1 ok (hT.2 hc).1
  exact ⟨h2, h3, h4, rep_buffered h1.rx, rep_buffered h1.tx⟩

/-- While `isOpen()` says true every run of the task moves a byte each way, if there is one (and the
operating system accepts it; and space, else the byte that came in is dropped). -/
theorem C96_moves (rmem wmem : List Byte) (ops : List UOp) (hf : Fair (Unix.init rmem wmem) ops)
    (ht : ∀ op ∈ ops, Tame op) (ok : Bool) :
    let u := (steps (Unix.init rmem wmem) ops).1
    u.port.isOpen = true →
    (u.run ok).ser.wire = u.ser.wire ++ (if ok then (buffered u.ser.tx).take 1 else []) ∧
    (u.run ok).ser.arrived = u.ser.arrived ++ u.queue.take 1 ∧
    buffered (u.run ok).ser.rx =
      buffered u.ser.rx ++ (u.queue.take 1).take (u.ser.readBufferSize - (buffered u.ser.rx).length) := by
  intro u hc
  have hR : Reached u := ⟨rmem, wmem, ops, hf, rfl⟩
  have hT : PortConfig.Tidy u.port :=
    tidy_steps ops ⟨fun h => absurd h (by simp [Unix.init, Port.init]), fun _ => ⟨rfl, rfl⟩⟩ ht
  obtain ⟨f, hfd, _⟩ := hT.1 hc
  obtain ⟨h1, h2, h3, _⟩ := run_some hR.rep.1 ok hfd
  exact ⟨h2, h3, rep_buffered h1.rx⟩

theorem send_all (n : Nat) {u : Unix} {rq tq : List Byte} (h : Ser.Rep u.ser rq tq) {f : Nat}
    (hf : u.port.fd = some f) :
    (steps u (List.replicate n (.run true))).1.ser.wire = u.ser.wire ++ tq.take n := by
  induction n generalizing u rq tq with
  | zero => simp [steps]
  | succ n ih =>
    obtain ⟨h1, h2, _, _, h5, _⟩ := run_some h true hf
    have e := ih h1 (by rw [h5]; exact hf)
    rw [List.replicate_succ]
    simp only [steps]
    show (steps (u.run true) _).1.ser.wire = _
    rw [e, h2]
    cases tq <;> simp

/-- The expectation that a port which is closed and opened again starts afresh is false: what was
written before is sent on the new connection, and what was received before is read on it; only what the
operating system held is gone. -/
theorem C96_kept {u : Unix} (hu : Reached u) :
    let v := (steps u [.close, .poll .success]).1
    v.port.isOpen = true ∧ v.queue = [] ∧ buffered v.ser.rx = buffered u.ser.rx ∧
    (steps v (List.replicate (buffered u.ser.tx).length (.run true))).1.ser.wire =
      u.ser.wire ++ buffered u.ser.tx := by
  intro v
  have hc : u.close.port.isOpen = false := rfl
  have ev : v = u.close.opens .success := by
    show u.close.poll .success = _
    unfold Unix.poll
    rw [hc]; rfl
  have es : v.ser = u.ser := by rw [ev]; rfl
  have ef : v.port.fd = some u.port.next := by rw [ev]; rfl
  refine ⟨by rw [ev]; rfl, by rw [ev]; rfl, by rw [es], ?_⟩
  have h := hu.rep.1
  rw [← es] at h
  have := send_all (buffered u.ser.tx).length (by rw [es] at h; exact es ▸ h) ef
  rw [this, es]; simp

/-- The expectation that nothing is transferred while `isOpen()` says false is false in general: if the
terminal cannot be configured, bytes go both ways, with the configuration the terminal happens to have. -/
theorem C96_half {u : Unix} (hu : Reached u) (hc : u.port.isOpen = false) (o : Outcome)
    (ho : o = .getFails ∨ o = .speedFails ∨ o = .setFails) :
    let v := (steps u [.poll o, .run true]).1
    v.port.isOpen = false ∧ v.port.line = u.port.line ∧
    v.ser.wire = u.ser.wire ++ (buffered u.ser.tx).take 1 ∧
    v.ser.arrived = u.ser.arrived ++ u.queue.take 1 := by
  intro v
  have ep : u.poll o = u.opens o := by unfold Unix.poll; rw [hc]; rfl
  have ef : (u.opens o).port = { u.port with fd := some u.port.next, fds := u.port.next :: u.port.fds, next := u.port.next + 1 } := by
    rcases ho with ho | ho | ho <;> subst ho <;> rfl
  have eq : (u.opens o).queue = u.queue := by rcases ho with ho | ho | ho <;> subst ho <;> rfl
  have ev : v = (u.opens o).run true := by show (u.poll o).run true = _; rw [ep]
  have hfd : (u.opens o).port.fd = some u.port.next := by rw [ef]
  obtain ⟨_, h2, h3, _, h5, _⟩ := run_some (u := u.opens o) hu.rep.1 true hfd
  rw [ev, h5, h2, h3, ef, eq]
  exact ⟨hc, rfl, rfl, rfl⟩

/-- Steps of someone who neither opens (other than by a driver) nor closes the port. -/
def Leaves : UOp → Prop
  | .opens _ => False
  | .close => False
  | _ => True

/-- The expectation that a port whose `isOpen()` says true transfers is false: `open()` on an open port
whose device is gone answers false, but `isOpen()` still says true, so no driver opens the port again;
until it is closed not one byte is transferred. -/
theorem C96_stale {u : Unix} (hu : Reached u) (hc : u.port.isOpen = true) (ops : List UOp)
    (hl : ∀ op ∈ ops, Leaves op) (hf : Fair (u.opens .noFile) ops) :
    let v := (steps (u.opens .noFile) ops).1
    (u.port.open .noFile).2 = false ∧ v.port.isOpen = true ∧ v.ser.wire = u.ser.wire ∧
    v.ser.arrived = u.ser.arrived := by
  intro v
  refine ⟨rfl, ?_⟩
  suffices H : ∀ (ops : List UOp) (w : Unix) (rq tq : List Byte), Ser.Rep w.ser rq tq → w.ser.sched = [] →
      w.port.isOpen = true → w.port.fd = none → (∀ op ∈ ops, Leaves op) → Fair w ops →
      (steps w ops).1.port.isOpen = true ∧ (steps w ops).1.ser.wire = w.ser.wire ∧
      (steps w ops).1.ser.arrived = w.ser.arrived from
    H ops (u.opens .noFile) _ _ hu.rep.1 hu.rep.2 hc rfl hl hf
  intro ops
  induction ops with
  | nil => intro w rq tq _ _ h3 _ _ _; exact ⟨h3, rfl, rfl⟩
  | cons op ops ih =>
    intro w rq tq h1 h2 h3 h4 hl hf
    obtain ⟨⟨r, t, k1⟩, k2, _⟩ := ok_step h1 h2 op hf.1
    have key : (step w op).1.port.isOpen = true ∧ (step w op).1.port.fd = none ∧
        (step w op).1.ser.wire = w.ser.wire ∧ (step w op).1.ser.arrived = w.ser.arrived := by
      have hop := hl op (by simp)
      cases op with
      | api o => exact ⟨h3, h4, (quiet_call h2 o).wire, (quiet_call h2 o).arrived⟩
      | opens o => exact absurd hop id
      | close => exact absurd hop id
      | set b n => exact ⟨h3, h4, rfl, rfl⟩
      | deliver cs => exact ⟨h3, h4, rfl, rfl⟩
      | poll o =>
        have e : w.poll o = w := by unfold Unix.poll; rw [h3]; rfl
        show (w.poll o).port.isOpen = true ∧ (w.poll o).port.fd = none ∧ (w.poll o).ser.wire = _ ∧ (w.poll o).ser.arrived = _
        rw [e]; exact ⟨h3, h4, rfl, rfl⟩
      | run ok =>
        obtain ⟨_, j2, j3, _, j5, _⟩ := run_none h1 ok h4
        exact ⟨by show (w.run ok).port.isOpen = true; rw [j5]; exact h3,
          by show (w.run ok).port.fd = none; rw [j5]; exact h4, j2, j3⟩
    obtain ⟨e1, e2, e3⟩ := ih _ r t k1 k2 key.1 key.2.1 (fun x hx => hl x (by simp [hx])) hf.2
    simp only [steps]
    exact ⟨e1, e2.trans key.2.2.1, e3.trans key.2.2.2⟩

/-! Witnesses -/

/-- A session: written before the port is open, sent in part, closed, opened again. -/
def session : List UOp :=
  [.api (.write [65, 84, 13]), .run true, .poll .noFile, .run true, .poll .success, .deliver [79, 75], .run true,
    .run false, .close, .run true, .api (.read 1)]

example : Fair (Unix.init [0, 0, 0, 0] [0, 0, 0, 0]) session ∧
    (let r := steps (Unix.init [0, 0, 0, 0] [0, 0, 0, 0]) session
     r.2 = [65, 84, 13] ∧ r.1.ser.wire = [65] ∧ buffered r.1.ser.tx = [84, 13] ∧ buffered r.1.ser.rx = [75] ∧
     r.1.port.isOpen = false ∧
     (steps r.1 [.poll .success, .run true, .run true]).1.ser.wire = [65, 84, 13] ∧
     (steps r.1 [.poll .setFails, .run true]).1.ser.wire = [65, 84]) := by decide

example : ∀ op ∈ session, Tame op := by
  intro op h
  simp only [session, List.mem_cons, List.not_mem_nil, or_false] at h
  rcases h with rfl | rfl | rfl | rfl | rfl | rfl | rfl | rfl | rfl | rfl | rfl <;> simp [Tame]

example : Reached (steps (Unix.init [0, 0, 0, 0] [0, 0, 0, 0]) session).1 := ⟨_, _, session, by decide, rfl⟩

end Verif.Props.UnixSerial
