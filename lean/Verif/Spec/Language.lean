import Verif.Spec.Receiving

/-!
# The language of the drivers

The complete texts of the commands, with the settings the application has made: host, port and protocol of
`setHostPort()`, access point name, SSID, password. Numbers are given by their digits.
-/

namespace Verif.Spec

/-- The strings of a command that follow its first string. -/
def more : List Ev → List Byte
  | .arg w _ :: l => w ++ more l
  | _ => []

/-- The complete texts of the commands in a list of events. -/
def texts : List Ev → List (List Byte)
  | [] => []
  | .cmd w _ :: l => (w ++ more l) :: texts l
  | _ :: l => texts l

/-- Decimal digits only. -/
def AllDigits (v : List Byte) : Prop := ∀ c ∈ v, 48 ≤ c.toNat ∧ c.toNat ≤ 57

/-- Decimal digits of a number. -/
def Decimal (v : List Byte) (n : Nat) : Prop := AllDigits v ∧ digits v = n

/-- SIM7x00. `ip` is the address the name server gave for the host. -/
inductive LangSim7x00 (host ip apn : List Byte) (port : Nat) (t : ConnType) : List Byte → Prop
  | fixed (w : List Byte) : w ∈ [b!"ATE0", b!"AT+CSOCKSETPN=1", b!"AT+CIPMODE=0", b!"AT+NETOPEN", b!"AT+CIPRXGET=1",
      b!"AT+CIPRXGET=4,0", b!"AT+NETCLOSE", b!"AT+CRESET", b!"AT+CSQ", b!"AT+CGMI", b!"AT+CGMM", b!"AT+CGSN",
      b!"AT+CIMI", b!"AT+CICCID"] → LangSim7x00 host ip apn port t (w ++ b!"\r\n")
  | context : LangSim7x00 host ip apn port t (b!"AT+CGSOCKCONT=1,\"IP\",\"" ++ apn ++ b!"\"\r\n")
  | dns : LangSim7x00 host ip apn port t (b!"AT+CDNSGIP=\"" ++ host ++ b!"\"\r\n")
  | openUdp (v : List Byte) : t = .udp → Decimal v port →
      LangSim7x00 host ip apn port t (b!"AT+CIPOPEN=0,\"UDP\",,," ++ v ++ b!"\r\n")
  | openTcp (v : List Byte) : t ≠ .udp → Decimal v port →
      LangSim7x00 host ip apn port t (b!"AT+CIPOPEN=0,\"TCP\",\"" ++ ip ++ b!"\"," ++ v ++ b!"\r\n")
  | sendUdp (n v : List Byte) : t = .udp → AllDigits n → Decimal v port →
      LangSim7x00 host ip apn port t (b!"AT+CIPSEND=0," ++ n ++ b!",\"" ++ ip ++ b!"\"," ++ v ++ b!"\r\n")
  | sendTcp (n : List Byte) : t ≠ .udp → AllDigits n →
      LangSim7x00 host ip apn port t (b!"AT+CIPSEND=0," ++ n ++ b!"\r\n")
  | request (n : List Byte) : AllDigits n → LangSim7x00 host ip apn port t (b!"AT+CIPRXGET=2,0," ++ n ++ b!"\r\n")

/-- SIM800. -/
inductive LangSim800 (host ip apn : List Byte) (port : Nat) (t : ConnType) : List Byte → Prop
  | fixed (w : List Byte) : w ∈ [b!"ATE0", b!"AT+CIPRXGET=1", b!"AT+CIPMUX=1", b!"AT+CIICR", b!"AT+CIFSR",
      b!"AT+CIPRXGET=4,0", b!"AT+CIPCLOSE=0", b!"AT+CIPSHUT", b!"AT+CSQ", b!"AT+CGMI", b!"AT+CGMM", b!"AT+CGSN",
      b!"AT+CIMI", b!"AT+CCID"] → LangSim800 host ip apn port t (w ++ b!"\r\n")
  | context : LangSim800 host ip apn port t (b!"AT+CSTT=\"" ++ apn ++ b!"\"\r\n")
  | dns : LangSim800 host ip apn port t (b!"AT+CDNSGIP=\"" ++ host ++ b!"\"\r\n")
  | openUdp (v : List Byte) : t = .udp → Decimal v port →
      LangSim800 host ip apn port t (b!"AT+CIPSTART=0,\"UDP\",\"" ++ ip ++ b!"\"," ++ v ++ b!"\r\n")
  | openTcp (v : List Byte) : t ≠ .udp → Decimal v port →
      LangSim800 host ip apn port t (b!"AT+CIPSTART=0,\"TCP\",\"" ++ ip ++ b!"\"," ++ v ++ b!"\r\n")
  | send (n : List Byte) : AllDigits n → LangSim800 host ip apn port t (b!"AT+CIPSEND=0," ++ n ++ b!"\r\n")
  | request (n : List Byte) : AllDigits n → LangSim800 host ip apn port t (b!"AT+CIPRXGET=2,0," ++ n ++ b!"\r\n")

/-- Espressif. -/
inductive LangEspressif (host ssid passwd : List Byte) (port : Nat) (t : ConnType) : List Byte → Prop
  | fixed (w : List Byte) : w ∈ [b!"ATE0", b!"AT+CWMODE=1", b!"AT+CIPMUX=0", b!"AT+CIPMODE=0", b!"AT+CIPCLOSE",
      b!"AT+CWQAP", b!"AT+RST", b!"AT+CWJAP?", b!"AT+CIPSTAMAC?"] → LangEspressif host ssid passwd port t (w ++ b!"\r\n")
  | join : LangEspressif host ssid passwd port t (b!"AT+CWJAP=\"" ++ ssid ++ b!"\",\"" ++ passwd ++ b!"\"\r\n")
  | passive : t = .tcp → LangEspressif host ssid passwd port t b!"AT+CIPRECVMODE=1\r\n"
  | active : t ≠ .tcp → LangEspressif host ssid passwd port t b!"AT+CIPRECVMODE=0\r\n"
  | openTcp (v : List Byte) : t = .tcp → Decimal v port →
      LangEspressif host ssid passwd port t (b!"AT+CIPSTART=\"TCP\",\"" ++ host ++ b!"\"," ++ v ++ b!"\r\n")
  | openUdp (v : List Byte) : t = .udp → Decimal v port →
      LangEspressif host ssid passwd port t (b!"AT+CIPSTART=\"UDP\",\"" ++ host ++ b!"\"," ++ v ++ b!"\r\n")
  | openSsl (v : List Byte) : t = .ssl → Decimal v port →
      LangEspressif host ssid passwd port t (b!"AT+CIPSTART=\"SSL\",\"" ++ host ++ b!"\"," ++ v ++ b!"\r\n")
  | send (n : List Byte) : AllDigits n → LangEspressif host ssid passwd port t (b!"AT+CIPSEND=" ++ n ++ b!"\r\n")
  | request (n : List Byte) : AllDigits n →
      LangEspressif host ssid passwd port t (b!"AT+CIPRECVDATA=" ++ n ++ b!"\r\n")

/-- CC1352P7. -/
inductive LangCC1352P7 (host : List Byte) (port : Nat) (t : ConnType) : List Byte → Prop
  | fixed (w : List Byte) : w ∈ [b!"ATE0", b!"AT+CIPCLOSE", b!"AT+CSQ", b!"AT+CIPSTAMAC"] →
      LangCC1352P7 host port t (w ++ b!"\r\n")
  | openUdp (v : List Byte) : t = .udp → Decimal v port →
      LangCC1352P7 host port t (b!"AT+CIPSTART=\"UDP\",\"" ++ host ++ b!"\"," ++ v ++ b!"\r\n")
  | openTcp (v : List Byte) : t ≠ .udp → Decimal v port →
      LangCC1352P7 host port t (b!"AT+CIPSTART=\"TCP\",\"" ++ host ++ b!"\"," ++ v ++ b!"\r\n")
  | send (n : List Byte) : AllDigits n → LangCC1352P7 host port t (b!"AT+CIPSEND=" ++ n ++ b!"\r\n")
  | request (n : List Byte) : AllDigits n → LangCC1352P7 host port t (b!"AT+CIPRECVDATA=" ++ n ++ b!"\r\n")

end Verif.Spec
