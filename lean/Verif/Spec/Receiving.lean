import Verif.Spec.Trace

/-!
# Received data as seen on the serial line

An observer that follows data requests, the headers that answer them and the payload that follows.
-/

namespace Verif.Spec

/-- State of the observer. `req`: a data request is outstanding, with the strings that followed it as far
as the serial device accepted them; `due`: number of payload bytes still to come. -/
structure Rx where
  req : Option (List (List Byte))
  due : Nat
deriving Repr, DecidableEq

/-- `w`: the data request; `hdr l`: the number of bytes announced, if the line `l` is the header of a
data block. -/
def rx (w : List Byte) (hdr : List Byte → Option Nat) : Observer Rx where
  init := ⟨none, 0⟩
  step := fun s e =>
    match e with
    | .cmd v _ => { s with req := if v = w then some [] else none }
    | .arg _ g => { s with req := s.req.map (· ++ [g]) }
    | .line l =>
      match s.req, hdr l with
      | some _, some n => ⟨none, n⟩
      | _, _ => s
    | .data bs => { s with due := s.due - bs.length }
    | .drop bs => { s with due := s.due - bs.length }
    | .flush => ⟨none, 0⟩
    | .apiReset => ⟨none, 0⟩
    | _ => s

/-- Lines and payload are never mixed: a line is taken only when no payload is due; a block of payload
that is handed to the application is never empty and has exactly the length that the last header
announced (less what was thrown away); at most what is due is thrown away. -/
def Framed (w : List Byte) (hdr : List Byte → Option Nat) (t : List Ev) : Prop :=
  Always (fun pre e =>
    (∀ l, e = .line l → ((rx w hdr).after pre).due = 0) ∧
    (∀ bs, e = .data bs → bs.length = ((rx w hdr).after pre).due ∧ bs ≠ []) ∧
    (∀ bs, e = .drop bs → bs.length ≤ ((rx w hdr).after pre).due)) t

/-- Value of a list of decimal digits, most significant first. -/
def digits (l : List Byte) : Nat := l.foldl (fun a c => a * 10 + (c.toNat - 48)) 0

/-- The modem never answers a request with more bytes than it was asked for. -/
def Honours (w : List Byte) (hdr : List Byte → Option Nat) (t : List Ev) : Prop :=
  Always (fun pre e => ∀ l args n, e = .line l → ((rx w hdr).after pre).req = some args →
    hdr l = some n → ∃ g more, args = g :: more ∧ n ≤ digits g) t

/-- All payload bytes taken for the application since the last `resetStates()`. -/
def received : Observer (List Byte) where
  init := []
  step := fun s e =>
    match e with
    | .data bs => s ++ bs
    | .apiReset => []
    | _ => s

/-- All bytes handed to the application by `read()` since the last `resetStates()`. -/
def delivered : Observer (List Byte) where
  init := []
  step := fun s e =>
    match e with
    | .apiRead bs => s ++ bs
    | .apiReset => []
    | _ => s

/-- The number at position `k` of a line, as `atoi` reads it, converted to `Size`. -/
def numberAt (p : Platform) (l : List Byte) (k : Nat) : Nat :=
  toU64 (toInt (strtol p.long64 (l.drop k)))

/-- Data request of the cellular drivers. -/
def requestSim : List Byte := b!"AT+CIPRXGET=2,0,"

/-- Header of a data block for the cellular drivers. -/
def headerSim (p : Platform) (l : List Byte) : Option Nat :=
  if b!"+CIPRXGET: 2,0,".isPrefixOf l then some (numberAt p l 15) else none

/-- Data request of the WiFi and the WiSUN driver. -/
def requestWifi : List Byte := b!"AT+CIPRECVDATA="

/-- Header of a data block for the WiSUN driver. -/
def headerCC (p : Platform) (l : List Byte) : Option Nat :=
  if b!"+CIPRECVDATA".isPrefixOf l then some (numberAt p l 13) else none

/-- Header of a data block for the WiFi driver: it ends with the separator before the payload. -/
def headerEsp (p : Platform) (l : List Byte) : Option Nat :=
  if 14 < l.length ∧ l.length < 60 ∧
      ((l.getLast? = some 58 ∧ b!"+CIPRECVDATA,".isPrefixOf l = true) ∨
       (l.getLast? = some 44 ∧ b!"+CIPRECVDATA:".isPrefixOf l = true)) then
    some (numberAt p l 13)
  else none

end Verif.Spec
