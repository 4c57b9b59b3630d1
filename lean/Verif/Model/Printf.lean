import Verif.Model.BufferedSerial

/-!
# `printf` in the examples for the STM32

`printf` hands each character to `_putchar()`, which writes it to the serial port for messages without
looking for space. Nobody reads from that port in the examples.
-/

namespace Verif.Printf

/-- examples/stm32f1/dualport_stm32.cpp:129-136, ipcommdevice_stm32.cpp, eventloop.cpp, ntp.cpp, printf.cpp and
blockingmqtt_stm32.cpp alike. -/
def putchar (s : Ser) (c : Byte) : Ser := s.write1 c

/-- `printf` of a text. -/
def print (s : Ser) (text : List Byte) : Ser := text.foldl putchar s

end Verif.Printf
