import Verif.Model.Ops

/-! # Concrete histories, used in examples and as witnesses -/

namespace Verif.Sess

/-- Bytes from the modem; everything in the transmit buffer leaves before. -/
def say (l : List Byte) : List Op :=
  [.irq (List.replicate 80 ⟨none, true⟩), .irq (l.map fun c => ⟨some c, false⟩)]

/-- Bytes from the modem and two calls of `run()`. -/
def talk (l : List Byte) : List Op := say l ++ [.run true, .run true]

/-- A serial device with buffers of 80 bytes and no interrupts during calls. -/
def ser : Ser := Ser.init (List.replicate 80 0) (List.replicate 80 0) []

/-- Platform: `char` is unsigned, `long` has 32 bits (as on the STM32). -/
def arm : Platform := ⟨false, false⟩

def sim7x00 : Sim7x00.D :=
  Sim7x00.init ser (List.replicate 8 0) (List.replicate 8 0) .tcp (List.replicate 61 0)
    (List.replicate 16 0) (List.replicate 24 0)

def sim800 : Sim800.D :=
  Sim800.init ser (List.replicate 8 0) (List.replicate 8 0) .tcp (List.replicate 61 0)
    (List.replicate 16 0) (List.replicate 24 0)

def espressif : Espressif.D :=
  Espressif.init ser (List.replicate 8 0) (List.replicate 8 0) .tcp (List.replicate 61 0)
    (List.replicate 18 0) .uninit .uninit

def cc1352p7 : CC1352P7.D :=
  CC1352P7.init ser (List.replicate 8 0) (List.replicate 8 0) .tcp (List.replicate 61 0)
    (List.replicate 24 0)

/-- The SIM7x00 driver connects to host `h`, port 80. -/
def up7x00 (t : ConnType) : List Op :=
  [.run true, .setApn (some b!"a"), .setHostPort (some b!"h") 80 t, .connect, .run true, .run true] ++
  talk b!"OK\r\n" ++ talk b!"OK\r\n" ++ talk b!"OK\r\n" ++ talk b!"OK\r\n" ++
  talk b!"+NETOPEN: 0\r\n" ++ talk b!"OK\r\n" ++ talk b!"+CDNSGIP: 1,\"h\",\"1.2.3.4\"\r\n" ++
  talk b!"OK\r\n" ++ talk b!"+CIPOPEN: 0,0\r\n"

/-- The SIM800 driver connects to host `h`, port 80. -/
def up800 (t : ConnType) : List Op :=
  [.run true, .setApn (some b!"a"), .setHostPort (some b!"h") 80 t, .connect, .run true, .run true] ++
  talk b!"OK\r\n" ++ talk b!"OK\r\n" ++ talk b!"OK\r\n" ++ talk b!"OK\r\n" ++ talk b!"OK\r\n" ++
  talk b!"1.1.1.1\r\n" ++ talk b!"+CDNSGIP: 1,\"h\",\"1.2.3.4\"\r\n" ++ talk b!"OK\r\n" ++
  talk b!"0, CONNECT OK\r\n"

/-- The Espressif driver connects to host `h`, port 80. -/
def upEsp (t : ConnType) : List Op :=
  [.run true, .setSSID (some b!"s"), .setPassword (some b!"p"), .setHostPort (some b!"h") 80 t,
    .connect, .run true, .run true] ++
  talk b!"OK\r\n" ++ talk b!"OK\r\n" ++ talk b!"OK\r\n" ++ talk b!"OK\r\n" ++ talk b!"OK\r\n" ++
  talk b!"OK\r\n" ++ talk b!"OK\r\n"

/-- The CC1352P7 driver connects to host `h`, port 80. -/
def upCC (t : ConnType) : List Op :=
  [.run true, .setHostPort (some b!"h") 80 t, .connect, .run true, .run true] ++
  talk b!"OK\r\n" ++ talk b!"OK\r\n"

/-- Orderly disconnect of the four drivers. -/
def down7x00 : List Op := [.disconnect, .run true, .run true] ++ talk b!"+NETCLOSE: 0\r\n"

def down800 : List Op :=
  [.disconnect, .run true, .run true] ++ talk b!"0, CLOSE OK\r\n" ++ talk b!"SHUT OK\r\n"

def downEsp : List Op :=
  [.disconnect, .run true, .run true] ++ talk b!"OK\r\n" ++ talk b!"WIFI DISCONNECT\r\n"

def downCC : List Op := [.disconnect, .run true, .run true] ++ talk b!"OK\r\n"

end Verif.Sess
