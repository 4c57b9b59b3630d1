import Verif.Spec.Chat
import Verif.Spec.Parse

/-!
# Questions to the modem

`requestRSSI()`, `requestIDString()` and `requestMac()`: the driver passes the question on, and the modem answers with a
line that carries the value and with OK.
-/

namespace Verif.Spec

/-- A question and what happens then: `run()` is called at least once, and the modem answers. `Q`: the questions, each with
the value the modem has for it. -/
structure Query (Q : Type) where
  what : Q
  runs : Nat
  beats : List Beat

/-- The operations of a question. -/
def Query.ops {Q : Type} (op : Q → Op) (n : Nat) (i : Query Q) : List Op :=
  op i.what :: List.replicate (i.runs + 1) (.run true) ++ Spec.ops n i.beats

/-- Questions one after the other. -/
def inquiry {Q : Type} (op : Q → Op) (n : Nat) (is : List (Query Q)) : List Op := is.flatMap (Query.ops op n)

/-- The answer to a question: a line with the value, then OK. -/
def answer (value : Await) (ok : Await) : List Exchange := [⟨value, []⟩, ⟨ok, []⟩]

/-- A number with a sign, as the modem writes it. -/
def signed (v : Int) : List Byte := if v < 0 then 45 :: decimals v.natAbs else decimals v.natAbs

/-- A number is followed by a comma or the end of the line. -/
def Ends (rest : List Byte) : Prop := rest.head? = some 44 ∨ rest.head? = some 13

/-- The values are fine, and the modem answers. -/
def Asks {Q : Type} (fine : Q → Prop) (ask : Q → List Exchange) (is : List (Query Q)) : Prop :=
  ∀ i ∈ is, fine i.what ∧ Dialogue (ask i.what) i.beats

/-- A visit with questions before it and during it. -/
structure Tour (A Q : Type) where
  before : List (Query Q)
  access : A
  peer : Peer
  visit : Visit
  during : List (Query Q)

/-- Connecting. -/
def enter {A : Type} (setup : A → Peer → List Op) (n : Nat) (a : A) (q : Peer) (v : Visit) : List Op :=
  setup a q ++ (Spec.dial v.dial ++ Spec.ops n v.up) ++ hearAll n v.stay

/-- Disconnecting. -/
def depart (n : Nat) (v : Visit) : List Op := Spec.hangUp v.hangUp ++ Spec.ops n v.down ++ hearAll n v.rest

def Tour.ops {A Q : Type} (setup : A → Peer → List Op) (op : Q → Op) (n : Nat) (t : Tour A Q) : List Op :=
  inquiry op n t.before ++ enter setup n t.access t.peer t.visit ++ inquiry op n t.during ++ depart n t.visit

def tours {A Q : Type} (setup : A → Peer → List Op) (op : Q → Op) (n : Nat) (ts : List (Tour A Q)) : List Op :=
  ts.flatMap (Tour.ops setup op n)

/-- The commands of a tour, given those for connecting and disconnecting. -/
def Tour.says {A Q : Type} (up down : A → Peer → List (List Byte)) (say : Q → List Byte) (t : Tour A Q) : List (List Byte) :=
  t.before.map (fun i => say i.what) ++ up t.access t.peer ++ t.during.map (fun i => say i.what) ++ down t.access t.peer

/-! ### Cellular modems -/

/-- Signal strength, with the number in the answer; identification, with the text in the answer. -/
inductive SimQ
  | signal (n : Nat)
  | ident (t : IdType) (s : List Byte)

/-- The call. -/
def SimQ.op : SimQ → Op
  | .signal _ => .requestRSSI
  | .ident t _ => .requestID t

/-- The command. `iccid`: the command for the ICCID. -/
def SimQ.say (iccid : List Byte) : SimQ → List Byte
  | .signal _ => b!"AT+CSQ\r\n"
  | .ident .noRequest _ => []
  | .ident .manufacturer _ => b!"AT+CGMI\r\n"
  | .ident .model _ => b!"AT+CGMM\r\n"
  | .ident .imei _ => b!"AT+CGSN\r\n"
  | .ident .imsi _ => b!"AT+CIMI\r\n"
  | .ident .iccid _ => iccid ++ b!"\r\n"

/-- The values the modem may have: a text without a line end, for the ICCID a valid one. -/
def SimQ.Fine : SimQ → Prop
  | .signal n => n < 2147483648
  | .ident t s => t ≠ .noRequest ∧ s ≠ [] ∧ (13 : Byte) ∉ s ∧ (t = .iccid → ValidIccid s)

/-- Lines that are not taken for an identification: an echo, an empty line, other messages. -/
def noId (l : List Byte) : Prop := b!"AT" <+: l ∨ b!"\r" <+: l ∨ (b!"+" <+: l ∧ ¬ b!"+ICCID: " <+: l)

/-- The line with the value. -/
def SimQ.value : SimQ → List Byte → Prop
  | .signal n, l => ∃ rest, l = b!"+CSQ: " ++ decimals n ++ rest ∧ Ends rest
  | .ident _ s, l => (l = s ++ b!"\r\n" ∧ ¬ b!"AT" <+: l ∧ ¬ b!"+" <+: l) ∨ l = b!"+ICCID: " ++ s ++ b!"\r\n"

/-- The application gets the value; of a text the first 23 characters. -/
def SimQ.Answered {S R : Type} (d : SimDev S R) : SimQ → Prop
  | .signal n => d.getRSSI = rssiSpec n
  | .ident _ s => d.getIDString = some (s.take 23)

/-- The application gets no value. -/
def SimQ.Pending {S R : Type} (d : SimDev S R) : SimQ → Prop
  | .signal _ => d.getRSSI = 32767
  | .ident _ _ => d.getIDString = none

/-- SIM7x00. `bad`: lines that mean something else for the driver at this time. -/
def ask7x00 (bad : List (List Byte)) (q : SimQ) : List Exchange :=
  answer ⟨fun l => q.value l ∧ Clear (b!"OK" :: b!"ERROR" :: bad) l,
      fun l => Clear (b!"OK" :: b!"ERROR" :: bad) l ∧
        match q with
        | .signal _ => ¬ b!"+CSQ: " <+: l
        | .ident _ _ => noId l⟩
    (await b!"OK" (b!"ERROR" :: bad))

/-- SIM800: in an answer to a question for the signal strength, lines are searched for an identification, too. -/
def ask800 (bad : List (List Byte)) (q : SimQ) : List Exchange :=
  answer ⟨fun l => q.value l ∧ Clear (b!"OK" :: errors800 ++ bad) l,
      fun l => Clear (b!"OK" :: errors800 ++ bad) l ∧ noId l ∧
        match q with
        | .signal _ => ¬ b!"+CSQ: " <+: l
        | .ident _ _ => True⟩
    (await b!"OK" (errors800 ++ bad))

/-- Lines with a meaning in a connection. -/
def busy7x00 : List (List Byte) := [b!"+CIPRXGET: 1,0", b!"+IPCLOSE: 0,"]

def busy800 : List (List Byte) := [b!"+CIPRXGET: 1,0", b!"0, CLOSED"]

/-! ### Espressif, CC1352P7 -/

/-- Signal strength; no network (Espressif only); address of the interface. -/
inductive MacQ
  | signal (v : Int)
  | none
  | mac (s : List Byte)

def MacQ.op : MacQ → Op
  | .signal _ => .requestRSSI
  | .none => .requestRSSI
  | .mac _ => .requestMac

/-- The values the modem may have. Where `char` is signed, a question for the address is never passed on. -/
def MacQ.Fine (p : Platform) : MacQ → Prop
  | .signal v => -32768 ≤ v ∧ v < 32767
  | .none => True
  | .mac s => p.charSigned = false ∧ s ≠ [] ∧ (34 : Byte) ∉ s

def MacQ.sayEsp : MacQ → List Byte
  | .mac _ => b!"AT+CIPSTAMAC?\r\n"
  | _ => b!"AT+CWJAP?\r\n"

def MacQ.sayCC : MacQ → List Byte
  | .mac _ => b!"AT+CIPSTAMAC\r\n"
  | _ => b!"AT+CSQ\r\n"

/-- The line with the value: the signal strength is behind the third comma. -/
def MacQ.valueEsp : MacQ → List Byte → Prop
  | .signal v, l => ∃ name addr channel rest, l = b!"+CWJAP:" ++ name ++ b!"," ++ addr ++ b!"," ++ channel ++ b!"," ++ signed v ++ rest ∧
      (44 : Byte) ∉ name ∧ (44 : Byte) ∉ addr ∧ (44 : Byte) ∉ channel ∧ Ends rest
  | .none, l => b!"No AP" <+: l
  | .mac s, l => ∃ rest, l = b!"+CIPSTAMAC:\"" ++ s ++ b!"\"" ++ rest

def MacQ.valueCC : MacQ → List Byte → Prop
  | .signal v, l => ∃ rest, l = b!"+CSQ:" ++ signed v ++ rest ∧ Ends rest
  | .none, _ => False
  | .mac s, l => ∃ rest, l = b!"+CIPSTAMAC:\"" ++ s ++ b!"\"" ++ rest

/-- Espressif. `pl`: lines the driver reads to their end. -/
def askEsp (pl : List Byte → Prop) (bad : List (List Byte)) (q : MacQ) : List Exchange :=
  answer ⟨fun l => q.valueEsp l,
      fun l => Clear (b!"OK" :: errorsEsp ++ bad) l ∧
        match q with
        | .mac _ => ¬ b!"+CIPSTAMAC:\"" <+: l
        | _ => ¬ b!"+CWJAP:" <+: l ∧ ¬ b!"No AP" <+: l⟩
    ⟨fun l => b!"OK" <+: l ∧ pl l, fun l => Clear (b!"OK" :: errorsEsp ++ bad) l ∧ pl l⟩

def busyEsp : List (List Byte) := [b!"+IPD", b!"CLOSED", b!"WIFI DISCONNECT", b!"SEND FAIL"]

/-- CC1352P7. -/
def askCC (bad : List (List Byte)) (q : MacQ) : List Exchange :=
  answer ⟨fun l => q.valueCC l,
      fun l => Clear (b!"OK" :: b!"ERROR" :: bad) l ∧ ¬ b!"+CIPSTAMAC:\"" <+: l ∧
        match q with
        | .mac _ => True
        | _ => ¬ b!"+CSQ:" <+: l⟩
    (await b!"OK" (b!"ERROR" :: bad))

def busyCC : List (List Byte) := [b!"SEND FAIL", b!"+IPD", b!"CLOSED"]

def MacQ.AnsweredEsp (d : Espressif.D) : MacQ → Prop
  | .signal v => d.getRSSI = v
  | .none => d.getRSSI = 99
  | .mac s => Espressif.getMacString d = some (s.take 17)

def MacQ.AnsweredCC (d : CC1352P7.D) : MacQ → Prop
  | .signal v => d.getRSSI = v
  | .none => False
  | .mac s => CC1352P7.getMacString d = some (s.take 23)

/-- The application gets no value. -/
def MacQ.PendingEsp (d : Espressif.D) : MacQ → Prop
  | .mac _ => Espressif.getMacString d = Option.none
  | _ => d.getRSSI = 32767

def MacQ.PendingCC (d : CC1352P7.D) : MacQ → Prop
  | .mac _ => CC1352P7.getMacString d = Option.none
  | _ => d.getRSSI = 32767

/-! ### Connecting and disconnecting -/

@[simp] def hello7x00 (a : List Byte) (q : Peer) : List (List Byte) := b!"ATE0\r\n" :: says (open7x00 a q)
@[simp] def bye7x00 (_ : List Byte) (_ : Peer) : List (List Byte) := b!"AT+NETCLOSE\r\n" :: says close7x00
@[simp] def hello800 (a : List Byte) (q : Peer) : List (List Byte) := b!"ATE0\r\n" :: says (open800 a q)
@[simp] def bye800 (_ : List Byte) (_ : Peer) : List (List Byte) := b!"AT+CIPCLOSE=0\r\n" :: says close800
@[simp] def helloEsp (a : Wifi) (q : Peer) : List (List Byte) := b!"ATE0\r\n" :: says (openEsp a q)
@[simp] def byeEsp (_ : Wifi) (q : Peer) : List (List Byte) := b!"AT+CIPCLOSE\r\n" :: says (closeEsp q)
@[simp] def helloCC (_ : Unit) (q : Peer) : List (List Byte) := b!"ATE0\r\n" :: says (openCC q)
@[simp] def byeCC (_ : Unit) (_ : Peer) : List (List Byte) := b!"AT+CIPCLOSE\r\n" :: says closeCC

/-- Everything the modem says in a tour. -/
structure Tour7x00 (tx : Nat) (t : Tour (List Byte) SimQ) : Prop where
  fits : Fits7x00 tx t.access t.peer
  visit : t.visit.Ok (open7x00 t.access t.peer) close7x00 stay7x00 (fun _ => True)
  before : Asks SimQ.Fine (ask7x00 []) t.before
  during : Asks SimQ.Fine (ask7x00 busy7x00) t.during

structure Tour800 (tx : Nat) (t : Tour (List Byte) SimQ) : Prop where
  fits : Fits800 tx t.access t.peer
  visit : t.visit.Ok (open800 t.access t.peer) close800 stay800 (Clear errors800)
  before : Asks SimQ.Fine (ask800 []) t.before
  during : Asks SimQ.Fine (ask800 busy800) t.during

/-- Outside of a connection no line with a colon may come before OK. -/
structure TourEsp (p : Platform) (tx : Nat) (t : Tour Wifi MacQ) : Prop where
  fits : FitsEsp tx t.access t.peer
  visit : t.visit.Ok (openEsp t.access t.peer) (closeEsp t.peer) (stayEsp t.peer) (restEsp t.peer)
  before : Asks (MacQ.Fine p) (askEsp ((58 : Byte) ∉ ·) []) t.before
  during : Asks (MacQ.Fine p) (askEsp (plain t.peer.typ) busyEsp) t.during

structure TourCC (p : Platform) (tx : Nat) (t : Tour Unit MacQ) : Prop where
  fits : FitsCC tx t.peer
  visit : t.visit.Ok (openCC t.peer) closeCC stayCC (Clear [b!"ERROR"])
  before : Asks (MacQ.Fine p) (askCC []) t.before
  during : Asks (MacQ.Fine p) (askCC busyCC) t.during

end Verif.Spec
