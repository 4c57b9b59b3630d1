import Verif.Model.BlockingProgram

/-!
# What the program examples/linux/blocking.cpp is meant to do
-/

namespace Verif.Spec.BlockingProgram

open Verif.BlockingProgram

/-- More than two seconds, on a clock of 32 bits. -/
def Late (t0 t : Nat) : Prop := (t + 4294967296 - t0) % 4294967296 > 2000

/-- The driver is asked for bytes until `n` have come or the time is over; `out` are the bytes. -/
inductive Polls (t0 : Nat) : (n : Nat) → (out : List Byte) → List Call → Prop
  | full : Polls t0 0 [] []
  | late {n t : Nat} : n ≠ 0 → Late t0 t → Polls t0 n [] [.now t]
  | more {n t : Nat} {bs out : List Byte} {l : List Call} : n ≠ 0 → ¬ Late t0 t → bs.length ≤ n → Polls t0 (n - bs.length) out l →
      Polls t0 n (bs ++ out) (.now t :: .read bs :: l)

/-- A blocking read of 40 bytes. -/
def Reads (out : List Byte) (l : List Call) : Prop := ∃ t0 l', l = .now t0 :: l' ∧ Polls t0 40 out l'

/-- A blocking write of the request: all of it is handed to the driver at once, before the time is over; or nothing is. -/
def Writes (l : List Call) : Prop :=
  ∃ (t0 : Nat) (ts : List Nat), (∀ t ∈ ts, ¬ Late t0 t) ∧
    ((∃ t, Late t0 t ∧ l = .now t0 :: ts.map .now ++ [.now t]) ∨
      ∃ us : List Nat, (∀ t ∈ us.dropLast, ¬ Late t0 t) ∧ l = .now t0 :: ts.map .now ++ .write Client.request.length :: us.map .now)

/-- When the program has ended: the driver was configured and asked to connect; the request was written; the answer was read, up to a read
without a byte; the driver was asked to disconnect, and is idle. What was read has been printed, each piece up to a zero. `buf` was not
overrun. -/
def Done (e : Env) : Prop :=
  ∃ (req : List Call) (pieces : List (List Byte × List Call)) (last : List Call),
    e.log = [.setApn, .setHostPort, .connect] ++ req ++ pieces.flatMap (·.2) ++ last ++ [.disconnect] ∧
    Writes req ∧ (∀ x ∈ pieces, Reads x.1 x.2 ∧ x.1 ≠ []) ∧ Reads [] last ∧
    e.shown = pieces.flatMap (fun x => x.1.takeWhile (· != 0)) ∧ e.oob = false ∧ e.dev.isIdle = true

/-- The bytes read. -/
def bytes (l : List Call) : List Byte := l.flatMap fun x => match x with | .read bs => bs | _ => []

/-- The states of the program: from the first loop on, the scheduler is called, the clock is read, the driver is called, something is printed. -/
inductive Reached (p : Platform) (s0 : Prog) : Prog → Prop
  | start : Reached p s0 s0
  | yield {s : Prog} : Reached p s0 s → Reached p s0 (yield p s)
  | tick {s : Prog} : Reached p s0 s → Reached p s0 ((bld p).tick s).2
  | call {s : Prog} (op : Op) (x : Call) : Reached p s0 s → Reached p s0 (upd s fun e => e.call p op x)
  | print {s : Prog} (bs : List Byte) : Reached p s0 s → Reached p s0 (print s bs)

/-- The delay the driver set when it was run last (16 bits) is over at `tick`. -/
def Over (runs : List (Nat × Nat)) (tick : Nat) : Prop :=
  ∀ l a d, runs = l ++ [(a, d)] → d % 65536 = 0 ∨ (tick + 4294967296 - a) % 4294967296 ≥ d % 65536

/-- The driver was run only when the delay was over. -/
def Waited (runs : List (Nat × Nat)) : Prop := ∀ l b d post, runs = l ++ (b, d) :: post → Over l b

end Verif.Spec.BlockingProgram
