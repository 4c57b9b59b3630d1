import Verif.Model.Dev

/-! Which members the primitive operations of `Dev` leave alone. -/

namespace Verif.Dev

variable {S R X : Type}

section cmd

@[simp] theorem cmd_isOpen (d : Dev S R X) (s : List Byte) : (d.cmd s).isOpen = d.isOpen := rfl
@[simp] theorem cmd_rbuf (d : Dev S R X) (s : List Byte) : (d.cmd s).rbuf = d.rbuf := rfl
@[simp] theorem cmd_wbuf (d : Dev S R X) (s : List Byte) : (d.cmd s).wbuf = d.wbuf := rfl
@[simp] theorem cmd_typ (d : Dev S R X) (s : List Byte) : (d.cmd s).typ = d.typ := rfl
@[simp] theorem cmd_host (d : Dev S R X) (s : List Byte) : (d.cmd s).host = d.host := rfl
@[simp] theorem cmd_port (d : Dev S R X) (s : List Byte) : (d.cmd s).port = d.port := rfl
@[simp] theorem cmd_connectPending (d : Dev S R X) (s : List Byte) : (d.cmd s).connectPending = d.connectPending := rfl
@[simp] theorem cmd_resetPending (d : Dev S R X) (s : List Byte) : (d.cmd s).resetPending = d.resetPending := rfl
@[simp] theorem cmd_dataPending (d : Dev S R X) (s : List Byte) : (d.cmd s).dataPending = d.dataPending := rfl
@[simp] theorem cmd_disconnectPending (d : Dev S R X) (s : List Byte) : (d.cmd s).disconnectPending = d.disconnectPending := rfl
@[simp] theorem cmd_ipConnected (d : Dev S R X) (s : List Byte) : (d.cmd s).ipConnected = d.ipConnected := rfl
@[simp] theorem cmd_lineRead (d : Dev S R X) (s : List Byte) : (d.cmd s).lineRead = d.lineRead := rfl
@[simp] theorem cmd_serialLocked (d : Dev S R X) (s : List Byte) : (d.cmd s).serialLocked = d.serialLocked := rfl
@[simp] theorem cmd_cs (d : Dev S R X) (s : List Byte) : (d.cmd s).cs = d.cs := rfl
@[simp] theorem cmd_wait (d : Dev S R X) (s : List Byte) : (d.cmd s).wait = d.wait := rfl
@[simp] theorem cmd_line (d : Dev S R X) (s : List Byte) : (d.cmd s).line = d.line := rfl
@[simp] theorem cmd_lbFill (d : Dev S R X) (s : List Byte) : (d.cmd s).lbFill = d.lbFill := rfl
@[simp] theorem cmd_snd (d : Dev S R X) (s : List Byte) : (d.cmd s).snd = d.snd := rfl
@[simp] theorem cmd_rep (d : Dev S R X) (s : List Byte) : (d.cmd s).rep = d.rep := rfl
@[simp] theorem cmd_bytesToWrite (d : Dev S R X) (s : List Byte) : (d.cmd s).bytesToWrite = d.bytesToWrite := rfl
@[simp] theorem cmd_bytesToReceive (d : Dev S R X) (s : List Byte) : (d.cmd s).bytesToReceive = d.bytesToReceive := rfl
@[simp] theorem cmd_bytesToRead (d : Dev S R X) (s : List Byte) : (d.cmd s).bytesToRead = d.bytesToRead := rfl
@[simp] theorem cmd_rssi (d : Dev S R X) (s : List Byte) : (d.cmd s).rssi = d.rssi := rfl
@[simp] theorem cmd_delay (d : Dev S R X) (s : List Byte) : (d.cmd s).delay = d.delay := rfl
@[simp] theorem cmd_ub (d : Dev S R X) (s : List Byte) : (d.cmd s).ub = d.ub := rfl
@[simp] theorem cmd_ext (d : Dev S R X) (s : List Byte) : (d.cmd s).ext = d.ext := rfl

end cmd

section arg

@[simp] theorem arg_isOpen (d : Dev S R X) (s : List Byte) : (d.arg s).isOpen = d.isOpen := rfl
@[simp] theorem arg_rbuf (d : Dev S R X) (s : List Byte) : (d.arg s).rbuf = d.rbuf := rfl
@[simp] theorem arg_wbuf (d : Dev S R X) (s : List Byte) : (d.arg s).wbuf = d.wbuf := rfl
@[simp] theorem arg_typ (d : Dev S R X) (s : List Byte) : (d.arg s).typ = d.typ := rfl
@[simp] theorem arg_host (d : Dev S R X) (s : List Byte) : (d.arg s).host = d.host := rfl
@[simp] theorem arg_port (d : Dev S R X) (s : List Byte) : (d.arg s).port = d.port := rfl
@[simp] theorem arg_connectPending (d : Dev S R X) (s : List Byte) : (d.arg s).connectPending = d.connectPending := rfl
@[simp] theorem arg_resetPending (d : Dev S R X) (s : List Byte) : (d.arg s).resetPending = d.resetPending := rfl
@[simp] theorem arg_dataPending (d : Dev S R X) (s : List Byte) : (d.arg s).dataPending = d.dataPending := rfl
@[simp] theorem arg_disconnectPending (d : Dev S R X) (s : List Byte) : (d.arg s).disconnectPending = d.disconnectPending := rfl
@[simp] theorem arg_ipConnected (d : Dev S R X) (s : List Byte) : (d.arg s).ipConnected = d.ipConnected := rfl
@[simp] theorem arg_lineRead (d : Dev S R X) (s : List Byte) : (d.arg s).lineRead = d.lineRead := rfl
@[simp] theorem arg_serialLocked (d : Dev S R X) (s : List Byte) : (d.arg s).serialLocked = d.serialLocked := rfl
@[simp] theorem arg_cs (d : Dev S R X) (s : List Byte) : (d.arg s).cs = d.cs := rfl
@[simp] theorem arg_wait (d : Dev S R X) (s : List Byte) : (d.arg s).wait = d.wait := rfl
@[simp] theorem arg_line (d : Dev S R X) (s : List Byte) : (d.arg s).line = d.line := rfl
@[simp] theorem arg_lbFill (d : Dev S R X) (s : List Byte) : (d.arg s).lbFill = d.lbFill := rfl
@[simp] theorem arg_snd (d : Dev S R X) (s : List Byte) : (d.arg s).snd = d.snd := rfl
@[simp] theorem arg_rep (d : Dev S R X) (s : List Byte) : (d.arg s).rep = d.rep := rfl
@[simp] theorem arg_bytesToWrite (d : Dev S R X) (s : List Byte) : (d.arg s).bytesToWrite = d.bytesToWrite := rfl
@[simp] theorem arg_bytesToReceive (d : Dev S R X) (s : List Byte) : (d.arg s).bytesToReceive = d.bytesToReceive := rfl
@[simp] theorem arg_bytesToRead (d : Dev S R X) (s : List Byte) : (d.arg s).bytesToRead = d.bytesToRead := rfl
@[simp] theorem arg_rssi (d : Dev S R X) (s : List Byte) : (d.arg s).rssi = d.rssi := rfl
@[simp] theorem arg_delay (d : Dev S R X) (s : List Byte) : (d.arg s).delay = d.delay := rfl
@[simp] theorem arg_ub (d : Dev S R X) (s : List Byte) : (d.arg s).ub = d.ub := rfl
@[simp] theorem arg_ext (d : Dev S R X) (s : List Byte) : (d.arg s).ext = d.ext := rfl

end arg

section cmdN

@[simp] theorem cmdN_isOpen (d : Dev S R X) (s : List Byte) : (d.cmdN s).isOpen = d.isOpen := rfl
@[simp] theorem cmdN_rbuf (d : Dev S R X) (s : List Byte) : (d.cmdN s).rbuf = d.rbuf := rfl
@[simp] theorem cmdN_wbuf (d : Dev S R X) (s : List Byte) : (d.cmdN s).wbuf = d.wbuf := rfl
@[simp] theorem cmdN_typ (d : Dev S R X) (s : List Byte) : (d.cmdN s).typ = d.typ := rfl
@[simp] theorem cmdN_host (d : Dev S R X) (s : List Byte) : (d.cmdN s).host = d.host := rfl
@[simp] theorem cmdN_port (d : Dev S R X) (s : List Byte) : (d.cmdN s).port = d.port := rfl
@[simp] theorem cmdN_connectPending (d : Dev S R X) (s : List Byte) : (d.cmdN s).connectPending = d.connectPending := rfl
@[simp] theorem cmdN_resetPending (d : Dev S R X) (s : List Byte) : (d.cmdN s).resetPending = d.resetPending := rfl
@[simp] theorem cmdN_dataPending (d : Dev S R X) (s : List Byte) : (d.cmdN s).dataPending = d.dataPending := rfl
@[simp] theorem cmdN_disconnectPending (d : Dev S R X) (s : List Byte) : (d.cmdN s).disconnectPending = d.disconnectPending := rfl
@[simp] theorem cmdN_ipConnected (d : Dev S R X) (s : List Byte) : (d.cmdN s).ipConnected = d.ipConnected := rfl
@[simp] theorem cmdN_lineRead (d : Dev S R X) (s : List Byte) : (d.cmdN s).lineRead = d.lineRead := rfl
@[simp] theorem cmdN_serialLocked (d : Dev S R X) (s : List Byte) : (d.cmdN s).serialLocked = d.serialLocked := rfl
@[simp] theorem cmdN_cs (d : Dev S R X) (s : List Byte) : (d.cmdN s).cs = d.cs := rfl
@[simp] theorem cmdN_wait (d : Dev S R X) (s : List Byte) : (d.cmdN s).wait = d.wait := rfl
@[simp] theorem cmdN_line (d : Dev S R X) (s : List Byte) : (d.cmdN s).line = d.line := rfl
@[simp] theorem cmdN_lbFill (d : Dev S R X) (s : List Byte) : (d.cmdN s).lbFill = d.lbFill := rfl
@[simp] theorem cmdN_snd (d : Dev S R X) (s : List Byte) : (d.cmdN s).snd = d.snd := rfl
@[simp] theorem cmdN_rep (d : Dev S R X) (s : List Byte) : (d.cmdN s).rep = d.rep := rfl
@[simp] theorem cmdN_bytesToWrite (d : Dev S R X) (s : List Byte) : (d.cmdN s).bytesToWrite = d.bytesToWrite := rfl
@[simp] theorem cmdN_bytesToReceive (d : Dev S R X) (s : List Byte) : (d.cmdN s).bytesToReceive = d.bytesToReceive := rfl
@[simp] theorem cmdN_bytesToRead (d : Dev S R X) (s : List Byte) : (d.cmdN s).bytesToRead = d.bytesToRead := rfl
@[simp] theorem cmdN_rssi (d : Dev S R X) (s : List Byte) : (d.cmdN s).rssi = d.rssi := rfl
@[simp] theorem cmdN_delay (d : Dev S R X) (s : List Byte) : (d.cmdN s).delay = d.delay := rfl
@[simp] theorem cmdN_ub (d : Dev S R X) (s : List Byte) : (d.cmdN s).ub = d.ub := rfl
@[simp] theorem cmdN_ext (d : Dev S R X) (s : List Byte) : (d.cmdN s).ext = d.ext := rfl

end cmdN

section argN

@[simp] theorem argN_isOpen (d : Dev S R X) (s : List Byte) : (d.argN s).isOpen = d.isOpen := rfl
@[simp] theorem argN_rbuf (d : Dev S R X) (s : List Byte) : (d.argN s).rbuf = d.rbuf := rfl
@[simp] theorem argN_wbuf (d : Dev S R X) (s : List Byte) : (d.argN s).wbuf = d.wbuf := rfl
@[simp] theorem argN_typ (d : Dev S R X) (s : List Byte) : (d.argN s).typ = d.typ := rfl
@[simp] theorem argN_host (d : Dev S R X) (s : List Byte) : (d.argN s).host = d.host := rfl
@[simp] theorem argN_port (d : Dev S R X) (s : List Byte) : (d.argN s).port = d.port := rfl
@[simp] theorem argN_connectPending (d : Dev S R X) (s : List Byte) : (d.argN s).connectPending = d.connectPending := rfl
@[simp] theorem argN_resetPending (d : Dev S R X) (s : List Byte) : (d.argN s).resetPending = d.resetPending := rfl
@[simp] theorem argN_dataPending (d : Dev S R X) (s : List Byte) : (d.argN s).dataPending = d.dataPending := rfl
@[simp] theorem argN_disconnectPending (d : Dev S R X) (s : List Byte) : (d.argN s).disconnectPending = d.disconnectPending := rfl
@[simp] theorem argN_ipConnected (d : Dev S R X) (s : List Byte) : (d.argN s).ipConnected = d.ipConnected := rfl
@[simp] theorem argN_lineRead (d : Dev S R X) (s : List Byte) : (d.argN s).lineRead = d.lineRead := rfl
@[simp] theorem argN_serialLocked (d : Dev S R X) (s : List Byte) : (d.argN s).serialLocked = d.serialLocked := rfl
@[simp] theorem argN_cs (d : Dev S R X) (s : List Byte) : (d.argN s).cs = d.cs := rfl
@[simp] theorem argN_wait (d : Dev S R X) (s : List Byte) : (d.argN s).wait = d.wait := rfl
@[simp] theorem argN_line (d : Dev S R X) (s : List Byte) : (d.argN s).line = d.line := rfl
@[simp] theorem argN_lbFill (d : Dev S R X) (s : List Byte) : (d.argN s).lbFill = d.lbFill := rfl
@[simp] theorem argN_snd (d : Dev S R X) (s : List Byte) : (d.argN s).snd = d.snd := rfl
@[simp] theorem argN_rep (d : Dev S R X) (s : List Byte) : (d.argN s).rep = d.rep := rfl
@[simp] theorem argN_bytesToWrite (d : Dev S R X) (s : List Byte) : (d.argN s).bytesToWrite = d.bytesToWrite := rfl
@[simp] theorem argN_bytesToReceive (d : Dev S R X) (s : List Byte) : (d.argN s).bytesToReceive = d.bytesToReceive := rfl
@[simp] theorem argN_bytesToRead (d : Dev S R X) (s : List Byte) : (d.argN s).bytesToRead = d.bytesToRead := rfl
@[simp] theorem argN_rssi (d : Dev S R X) (s : List Byte) : (d.argN s).rssi = d.rssi := rfl
@[simp] theorem argN_delay (d : Dev S R X) (s : List Byte) : (d.argN s).delay = d.delay := rfl
@[simp] theorem argN_ub (d : Dev S R X) (s : List Byte) : (d.argN s).ub = d.ub := rfl
@[simp] theorem argN_ext (d : Dev S R X) (s : List Byte) : (d.argN s).ext = d.ext := rfl

end argN

section sendCommand

@[simp] theorem sendCommand_isOpen (d : Dev S R X) (s : List Byte) : (d.sendCommand s).isOpen = d.isOpen := rfl
@[simp] theorem sendCommand_rbuf (d : Dev S R X) (s : List Byte) : (d.sendCommand s).rbuf = d.rbuf := rfl
@[simp] theorem sendCommand_wbuf (d : Dev S R X) (s : List Byte) : (d.sendCommand s).wbuf = d.wbuf := rfl
@[simp] theorem sendCommand_typ (d : Dev S R X) (s : List Byte) : (d.sendCommand s).typ = d.typ := rfl
@[simp] theorem sendCommand_host (d : Dev S R X) (s : List Byte) : (d.sendCommand s).host = d.host := rfl
@[simp] theorem sendCommand_port (d : Dev S R X) (s : List Byte) : (d.sendCommand s).port = d.port := rfl
@[simp] theorem sendCommand_connectPending (d : Dev S R X) (s : List Byte) : (d.sendCommand s).connectPending = d.connectPending := rfl
@[simp] theorem sendCommand_resetPending (d : Dev S R X) (s : List Byte) : (d.sendCommand s).resetPending = d.resetPending := rfl
@[simp] theorem sendCommand_dataPending (d : Dev S R X) (s : List Byte) : (d.sendCommand s).dataPending = d.dataPending := rfl
@[simp] theorem sendCommand_disconnectPending (d : Dev S R X) (s : List Byte) : (d.sendCommand s).disconnectPending = d.disconnectPending := rfl
@[simp] theorem sendCommand_ipConnected (d : Dev S R X) (s : List Byte) : (d.sendCommand s).ipConnected = d.ipConnected := rfl
@[simp] theorem sendCommand_lineRead (d : Dev S R X) (s : List Byte) : (d.sendCommand s).lineRead = d.lineRead := rfl
@[simp] theorem sendCommand_serialLocked (d : Dev S R X) (s : List Byte) : (d.sendCommand s).serialLocked = d.serialLocked := rfl
@[simp] theorem sendCommand_cs (d : Dev S R X) (s : List Byte) : (d.sendCommand s).cs = d.cs := rfl
@[simp] theorem sendCommand_wait (d : Dev S R X) (s : List Byte) : (d.sendCommand s).wait = d.wait := rfl
@[simp] theorem sendCommand_line (d : Dev S R X) (s : List Byte) : (d.sendCommand s).line = d.line := rfl
@[simp] theorem sendCommand_lbFill (d : Dev S R X) (s : List Byte) : (d.sendCommand s).lbFill = d.lbFill := rfl
@[simp] theorem sendCommand_snd (d : Dev S R X) (s : List Byte) : (d.sendCommand s).snd = d.snd := rfl
@[simp] theorem sendCommand_rep (d : Dev S R X) (s : List Byte) : (d.sendCommand s).rep = d.rep := rfl
@[simp] theorem sendCommand_bytesToWrite (d : Dev S R X) (s : List Byte) : (d.sendCommand s).bytesToWrite = d.bytesToWrite := rfl
@[simp] theorem sendCommand_bytesToReceive (d : Dev S R X) (s : List Byte) : (d.sendCommand s).bytesToReceive = d.bytesToReceive := rfl
@[simp] theorem sendCommand_bytesToRead (d : Dev S R X) (s : List Byte) : (d.sendCommand s).bytesToRead = d.bytesToRead := rfl
@[simp] theorem sendCommand_rssi (d : Dev S R X) (s : List Byte) : (d.sendCommand s).rssi = d.rssi := rfl
@[simp] theorem sendCommand_delay (d : Dev S R X) (s : List Byte) : (d.sendCommand s).delay = d.delay := rfl
@[simp] theorem sendCommand_ub (d : Dev S R X) (s : List Byte) : (d.sendCommand s).ub = d.ub := rfl
@[simp] theorem sendCommand_ext (d : Dev S R X) (s : List Byte) : (d.sendCommand s).ext = d.ext := rfl

end sendCommand

section log

@[simp] theorem log_ser (d : Dev S R X) (e : Ev) : (d.log e).ser = d.ser := rfl
@[simp] theorem log_isOpen (d : Dev S R X) (e : Ev) : (d.log e).isOpen = d.isOpen := rfl
@[simp] theorem log_rbuf (d : Dev S R X) (e : Ev) : (d.log e).rbuf = d.rbuf := rfl
@[simp] theorem log_wbuf (d : Dev S R X) (e : Ev) : (d.log e).wbuf = d.wbuf := rfl
@[simp] theorem log_typ (d : Dev S R X) (e : Ev) : (d.log e).typ = d.typ := rfl
@[simp] theorem log_host (d : Dev S R X) (e : Ev) : (d.log e).host = d.host := rfl
@[simp] theorem log_port (d : Dev S R X) (e : Ev) : (d.log e).port = d.port := rfl
@[simp] theorem log_connectPending (d : Dev S R X) (e : Ev) : (d.log e).connectPending = d.connectPending := rfl
@[simp] theorem log_resetPending (d : Dev S R X) (e : Ev) : (d.log e).resetPending = d.resetPending := rfl
@[simp] theorem log_dataPending (d : Dev S R X) (e : Ev) : (d.log e).dataPending = d.dataPending := rfl
@[simp] theorem log_disconnectPending (d : Dev S R X) (e : Ev) : (d.log e).disconnectPending = d.disconnectPending := rfl
@[simp] theorem log_ipConnected (d : Dev S R X) (e : Ev) : (d.log e).ipConnected = d.ipConnected := rfl
@[simp] theorem log_lineRead (d : Dev S R X) (e : Ev) : (d.log e).lineRead = d.lineRead := rfl
@[simp] theorem log_serialLocked (d : Dev S R X) (e : Ev) : (d.log e).serialLocked = d.serialLocked := rfl
@[simp] theorem log_cs (d : Dev S R X) (e : Ev) : (d.log e).cs = d.cs := rfl
@[simp] theorem log_wait (d : Dev S R X) (e : Ev) : (d.log e).wait = d.wait := rfl
@[simp] theorem log_line (d : Dev S R X) (e : Ev) : (d.log e).line = d.line := rfl
@[simp] theorem log_lbFill (d : Dev S R X) (e : Ev) : (d.log e).lbFill = d.lbFill := rfl
@[simp] theorem log_snd (d : Dev S R X) (e : Ev) : (d.log e).snd = d.snd := rfl
@[simp] theorem log_rep (d : Dev S R X) (e : Ev) : (d.log e).rep = d.rep := rfl
@[simp] theorem log_bytesToWrite (d : Dev S R X) (e : Ev) : (d.log e).bytesToWrite = d.bytesToWrite := rfl
@[simp] theorem log_bytesToReceive (d : Dev S R X) (e : Ev) : (d.log e).bytesToReceive = d.bytesToReceive := rfl
@[simp] theorem log_bytesToRead (d : Dev S R X) (e : Ev) : (d.log e).bytesToRead = d.bytesToRead := rfl
@[simp] theorem log_rssi (d : Dev S R X) (e : Ev) : (d.log e).rssi = d.rssi := rfl
@[simp] theorem log_delay (d : Dev S R X) (e : Ev) : (d.log e).delay = d.delay := rfl
@[simp] theorem log_ub (d : Dev S R X) (e : Ev) : (d.log e).ub = d.ub := rfl
@[simp] theorem log_ext (d : Dev S R X) (e : Ev) : (d.log e).ext = d.ext := rfl

end log

section askSpace

@[simp] theorem askSpace_isOpen (d : Dev S R X) : (d.askSpace).isOpen = d.isOpen := rfl
@[simp] theorem askSpace_rbuf (d : Dev S R X) : (d.askSpace).rbuf = d.rbuf := rfl
@[simp] theorem askSpace_wbuf (d : Dev S R X) : (d.askSpace).wbuf = d.wbuf := rfl
@[simp] theorem askSpace_typ (d : Dev S R X) : (d.askSpace).typ = d.typ := rfl
@[simp] theorem askSpace_host (d : Dev S R X) : (d.askSpace).host = d.host := rfl
@[simp] theorem askSpace_port (d : Dev S R X) : (d.askSpace).port = d.port := rfl
@[simp] theorem askSpace_connectPending (d : Dev S R X) : (d.askSpace).connectPending = d.connectPending := rfl
@[simp] theorem askSpace_resetPending (d : Dev S R X) : (d.askSpace).resetPending = d.resetPending := rfl
@[simp] theorem askSpace_dataPending (d : Dev S R X) : (d.askSpace).dataPending = d.dataPending := rfl
@[simp] theorem askSpace_disconnectPending (d : Dev S R X) : (d.askSpace).disconnectPending = d.disconnectPending := rfl
@[simp] theorem askSpace_ipConnected (d : Dev S R X) : (d.askSpace).ipConnected = d.ipConnected := rfl
@[simp] theorem askSpace_lineRead (d : Dev S R X) : (d.askSpace).lineRead = d.lineRead := rfl
@[simp] theorem askSpace_serialLocked (d : Dev S R X) : (d.askSpace).serialLocked = d.serialLocked := rfl
@[simp] theorem askSpace_cs (d : Dev S R X) : (d.askSpace).cs = d.cs := rfl
@[simp] theorem askSpace_wait (d : Dev S R X) : (d.askSpace).wait = d.wait := rfl
@[simp] theorem askSpace_line (d : Dev S R X) : (d.askSpace).line = d.line := rfl
@[simp] theorem askSpace_lbFill (d : Dev S R X) : (d.askSpace).lbFill = d.lbFill := rfl
@[simp] theorem askSpace_snd (d : Dev S R X) : (d.askSpace).snd = d.snd := rfl
@[simp] theorem askSpace_rep (d : Dev S R X) : (d.askSpace).rep = d.rep := rfl
@[simp] theorem askSpace_bytesToWrite (d : Dev S R X) : (d.askSpace).bytesToWrite = d.bytesToWrite := rfl
@[simp] theorem askSpace_bytesToReceive (d : Dev S R X) : (d.askSpace).bytesToReceive = d.bytesToReceive := rfl
@[simp] theorem askSpace_bytesToRead (d : Dev S R X) : (d.askSpace).bytesToRead = d.bytesToRead := rfl
@[simp] theorem askSpace_rssi (d : Dev S R X) : (d.askSpace).rssi = d.rssi := rfl
@[simp] theorem askSpace_delay (d : Dev S R X) : (d.askSpace).delay = d.delay := rfl
@[simp] theorem askSpace_ub (d : Dev S R X) : (d.askSpace).ub = d.ub := rfl
@[simp] theorem askSpace_trace (d : Dev S R X) : (d.askSpace).trace = d.trace := rfl
@[simp] theorem askSpace_ext (d : Dev S R X) : (d.askSpace).ext = d.ext := rfl

end askSpace

section askAvail

@[simp] theorem askAvail_isOpen (d : Dev S R X) : (d.askAvail).isOpen = d.isOpen := rfl
@[simp] theorem askAvail_rbuf (d : Dev S R X) : (d.askAvail).rbuf = d.rbuf := rfl
@[simp] theorem askAvail_wbuf (d : Dev S R X) : (d.askAvail).wbuf = d.wbuf := rfl
@[simp] theorem askAvail_typ (d : Dev S R X) : (d.askAvail).typ = d.typ := rfl
@[simp] theorem askAvail_host (d : Dev S R X) : (d.askAvail).host = d.host := rfl
@[simp] theorem askAvail_port (d : Dev S R X) : (d.askAvail).port = d.port := rfl
@[simp] theorem askAvail_connectPending (d : Dev S R X) : (d.askAvail).connectPending = d.connectPending := rfl
@[simp] theorem askAvail_resetPending (d : Dev S R X) : (d.askAvail).resetPending = d.resetPending := rfl
@[simp] theorem askAvail_dataPending (d : Dev S R X) : (d.askAvail).dataPending = d.dataPending := rfl
@[simp] theorem askAvail_disconnectPending (d : Dev S R X) : (d.askAvail).disconnectPending = d.disconnectPending := rfl
@[simp] theorem askAvail_ipConnected (d : Dev S R X) : (d.askAvail).ipConnected = d.ipConnected := rfl
@[simp] theorem askAvail_lineRead (d : Dev S R X) : (d.askAvail).lineRead = d.lineRead := rfl
@[simp] theorem askAvail_serialLocked (d : Dev S R X) : (d.askAvail).serialLocked = d.serialLocked := rfl
@[simp] theorem askAvail_cs (d : Dev S R X) : (d.askAvail).cs = d.cs := rfl
@[simp] theorem askAvail_wait (d : Dev S R X) : (d.askAvail).wait = d.wait := rfl
@[simp] theorem askAvail_line (d : Dev S R X) : (d.askAvail).line = d.line := rfl
@[simp] theorem askAvail_lbFill (d : Dev S R X) : (d.askAvail).lbFill = d.lbFill := rfl
@[simp] theorem askAvail_snd (d : Dev S R X) : (d.askAvail).snd = d.snd := rfl
@[simp] theorem askAvail_rep (d : Dev S R X) : (d.askAvail).rep = d.rep := rfl
@[simp] theorem askAvail_bytesToWrite (d : Dev S R X) : (d.askAvail).bytesToWrite = d.bytesToWrite := rfl
@[simp] theorem askAvail_bytesToReceive (d : Dev S R X) : (d.askAvail).bytesToReceive = d.bytesToReceive := rfl
@[simp] theorem askAvail_bytesToRead (d : Dev S R X) : (d.askAvail).bytesToRead = d.bytesToRead := rfl
@[simp] theorem askAvail_rssi (d : Dev S R X) : (d.askAvail).rssi = d.rssi := rfl
@[simp] theorem askAvail_delay (d : Dev S R X) : (d.askAvail).delay = d.delay := rfl
@[simp] theorem askAvail_ub (d : Dev S R X) : (d.askAvail).ub = d.ub := rfl
@[simp] theorem askAvail_trace (d : Dev S R X) : (d.askAvail).trace = d.trace := rfl
@[simp] theorem askAvail_ext (d : Dev S R X) : (d.askAvail).ext = d.ext := rfl

end askAvail

section flushSer

@[simp] theorem flushSer_isOpen (d : Dev S R X) : (d.flushSer).isOpen = d.isOpen := rfl
@[simp] theorem flushSer_rbuf (d : Dev S R X) : (d.flushSer).rbuf = d.rbuf := rfl
@[simp] theorem flushSer_wbuf (d : Dev S R X) : (d.flushSer).wbuf = d.wbuf := rfl
@[simp] theorem flushSer_typ (d : Dev S R X) : (d.flushSer).typ = d.typ := rfl
@[simp] theorem flushSer_host (d : Dev S R X) : (d.flushSer).host = d.host := rfl
@[simp] theorem flushSer_port (d : Dev S R X) : (d.flushSer).port = d.port := rfl
@[simp] theorem flushSer_connectPending (d : Dev S R X) : (d.flushSer).connectPending = d.connectPending := rfl
@[simp] theorem flushSer_resetPending (d : Dev S R X) : (d.flushSer).resetPending = d.resetPending := rfl
@[simp] theorem flushSer_dataPending (d : Dev S R X) : (d.flushSer).dataPending = d.dataPending := rfl
@[simp] theorem flushSer_disconnectPending (d : Dev S R X) : (d.flushSer).disconnectPending = d.disconnectPending := rfl
@[simp] theorem flushSer_ipConnected (d : Dev S R X) : (d.flushSer).ipConnected = d.ipConnected := rfl
@[simp] theorem flushSer_lineRead (d : Dev S R X) : (d.flushSer).lineRead = d.lineRead := rfl
@[simp] theorem flushSer_serialLocked (d : Dev S R X) : (d.flushSer).serialLocked = d.serialLocked := rfl
@[simp] theorem flushSer_cs (d : Dev S R X) : (d.flushSer).cs = d.cs := rfl
@[simp] theorem flushSer_wait (d : Dev S R X) : (d.flushSer).wait = d.wait := rfl
@[simp] theorem flushSer_line (d : Dev S R X) : (d.flushSer).line = d.line := rfl
@[simp] theorem flushSer_lbFill (d : Dev S R X) : (d.flushSer).lbFill = d.lbFill := rfl
@[simp] theorem flushSer_snd (d : Dev S R X) : (d.flushSer).snd = d.snd := rfl
@[simp] theorem flushSer_rep (d : Dev S R X) : (d.flushSer).rep = d.rep := rfl
@[simp] theorem flushSer_bytesToWrite (d : Dev S R X) : (d.flushSer).bytesToWrite = d.bytesToWrite := rfl
@[simp] theorem flushSer_bytesToReceive (d : Dev S R X) : (d.flushSer).bytesToReceive = d.bytesToReceive := rfl
@[simp] theorem flushSer_bytesToRead (d : Dev S R X) : (d.flushSer).bytesToRead = d.bytesToRead := rfl
@[simp] theorem flushSer_rssi (d : Dev S R X) : (d.flushSer).rssi = d.rssi := rfl
@[simp] theorem flushSer_delay (d : Dev S R X) : (d.flushSer).delay = d.delay := rfl
@[simp] theorem flushSer_ub (d : Dev S R X) : (d.flushSer).ub = d.ub := rfl
@[simp] theorem flushSer_ext (d : Dev S R X) : (d.flushSer).ext = d.ext := rfl

end flushSer

section flushReadBuffer

@[simp] theorem flushReadBuffer_isOpen (d : Dev S R X) : (d.flushReadBuffer).isOpen = d.isOpen := rfl
@[simp] theorem flushReadBuffer_rbuf (d : Dev S R X) : (d.flushReadBuffer).rbuf = d.rbuf := rfl
@[simp] theorem flushReadBuffer_wbuf (d : Dev S R X) : (d.flushReadBuffer).wbuf = d.wbuf := rfl
@[simp] theorem flushReadBuffer_typ (d : Dev S R X) : (d.flushReadBuffer).typ = d.typ := rfl
@[simp] theorem flushReadBuffer_host (d : Dev S R X) : (d.flushReadBuffer).host = d.host := rfl
@[simp] theorem flushReadBuffer_port (d : Dev S R X) : (d.flushReadBuffer).port = d.port := rfl
@[simp] theorem flushReadBuffer_connectPending (d : Dev S R X) : (d.flushReadBuffer).connectPending = d.connectPending := rfl
@[simp] theorem flushReadBuffer_resetPending (d : Dev S R X) : (d.flushReadBuffer).resetPending = d.resetPending := rfl
@[simp] theorem flushReadBuffer_dataPending (d : Dev S R X) : (d.flushReadBuffer).dataPending = d.dataPending := rfl
@[simp] theorem flushReadBuffer_disconnectPending (d : Dev S R X) : (d.flushReadBuffer).disconnectPending = d.disconnectPending := rfl
@[simp] theorem flushReadBuffer_ipConnected (d : Dev S R X) : (d.flushReadBuffer).ipConnected = d.ipConnected := rfl
@[simp] theorem flushReadBuffer_serialLocked (d : Dev S R X) : (d.flushReadBuffer).serialLocked = d.serialLocked := rfl
@[simp] theorem flushReadBuffer_cs (d : Dev S R X) : (d.flushReadBuffer).cs = d.cs := rfl
@[simp] theorem flushReadBuffer_wait (d : Dev S R X) : (d.flushReadBuffer).wait = d.wait := rfl
@[simp] theorem flushReadBuffer_line (d : Dev S R X) : (d.flushReadBuffer).line = d.line := rfl
@[simp] theorem flushReadBuffer_lbFill (d : Dev S R X) : (d.flushReadBuffer).lbFill = d.lbFill := rfl
@[simp] theorem flushReadBuffer_snd (d : Dev S R X) : (d.flushReadBuffer).snd = d.snd := rfl
@[simp] theorem flushReadBuffer_rep (d : Dev S R X) : (d.flushReadBuffer).rep = d.rep := rfl
@[simp] theorem flushReadBuffer_bytesToWrite (d : Dev S R X) : (d.flushReadBuffer).bytesToWrite = d.bytesToWrite := rfl
@[simp] theorem flushReadBuffer_rssi (d : Dev S R X) : (d.flushReadBuffer).rssi = d.rssi := rfl
@[simp] theorem flushReadBuffer_delay (d : Dev S R X) : (d.flushReadBuffer).delay = d.delay := rfl
@[simp] theorem flushReadBuffer_ub (d : Dev S R X) : (d.flushReadBuffer).ub = d.ub := rfl
@[simp] theorem flushReadBuffer_ext (d : Dev S R X) : (d.flushReadBuffer).ext = d.ext := rfl

end flushReadBuffer

section sendData

@[simp] theorem sendData_isOpen (d : Dev S R X) : (d.sendData).isOpen = d.isOpen := rfl
@[simp] theorem sendData_rbuf (d : Dev S R X) : (d.sendData).rbuf = d.rbuf := rfl
@[simp] theorem sendData_typ (d : Dev S R X) : (d.sendData).typ = d.typ := rfl
@[simp] theorem sendData_host (d : Dev S R X) : (d.sendData).host = d.host := rfl
@[simp] theorem sendData_port (d : Dev S R X) : (d.sendData).port = d.port := rfl
@[simp] theorem sendData_connectPending (d : Dev S R X) : (d.sendData).connectPending = d.connectPending := rfl
@[simp] theorem sendData_resetPending (d : Dev S R X) : (d.sendData).resetPending = d.resetPending := rfl
@[simp] theorem sendData_dataPending (d : Dev S R X) : (d.sendData).dataPending = d.dataPending := rfl
@[simp] theorem sendData_disconnectPending (d : Dev S R X) : (d.sendData).disconnectPending = d.disconnectPending := rfl
@[simp] theorem sendData_ipConnected (d : Dev S R X) : (d.sendData).ipConnected = d.ipConnected := rfl
@[simp] theorem sendData_lineRead (d : Dev S R X) : (d.sendData).lineRead = d.lineRead := rfl
@[simp] theorem sendData_serialLocked (d : Dev S R X) : (d.sendData).serialLocked = d.serialLocked := rfl
@[simp] theorem sendData_cs (d : Dev S R X) : (d.sendData).cs = d.cs := rfl
@[simp] theorem sendData_wait (d : Dev S R X) : (d.sendData).wait = d.wait := rfl
@[simp] theorem sendData_line (d : Dev S R X) : (d.sendData).line = d.line := rfl
@[simp] theorem sendData_lbFill (d : Dev S R X) : (d.sendData).lbFill = d.lbFill := rfl
@[simp] theorem sendData_snd (d : Dev S R X) : (d.sendData).snd = d.snd := rfl
@[simp] theorem sendData_rep (d : Dev S R X) : (d.sendData).rep = d.rep := rfl
@[simp] theorem sendData_bytesToReceive (d : Dev S R X) : (d.sendData).bytesToReceive = d.bytesToReceive := rfl
@[simp] theorem sendData_bytesToRead (d : Dev S R X) : (d.sendData).bytesToRead = d.bytesToRead := rfl
@[simp] theorem sendData_rssi (d : Dev S R X) : (d.sendData).rssi = d.rssi := rfl
@[simp] theorem sendData_delay (d : Dev S R X) : (d.sendData).delay = d.delay := rfl
@[simp] theorem sendData_ub (d : Dev S R X) : (d.sendData).ub = d.ub := rfl
@[simp] theorem sendData_ext (d : Dev S R X) : (d.sendData).ext = d.ext := rfl

end sendData

section handleDisconnect

@[simp] theorem handleDisconnect_ser (d : Dev S R X) (n : S) : (d.handleDisconnect n).ser = d.ser := by
  unfold handleDisconnect; split <;> rfl
@[simp] theorem handleDisconnect_isOpen (d : Dev S R X) (n : S) : (d.handleDisconnect n).isOpen = d.isOpen := by
  unfold handleDisconnect; split <;> rfl
@[simp] theorem handleDisconnect_rbuf (d : Dev S R X) (n : S) : (d.handleDisconnect n).rbuf = d.rbuf := by
  unfold handleDisconnect; split <;> rfl
@[simp] theorem handleDisconnect_wbuf (d : Dev S R X) (n : S) : (d.handleDisconnect n).wbuf = d.wbuf := by
  unfold handleDisconnect; split <;> rfl
@[simp] theorem handleDisconnect_typ (d : Dev S R X) (n : S) : (d.handleDisconnect n).typ = d.typ := by
  unfold handleDisconnect; split <;> rfl
@[simp] theorem handleDisconnect_host (d : Dev S R X) (n : S) : (d.handleDisconnect n).host = d.host := by
  unfold handleDisconnect; split <;> rfl
@[simp] theorem handleDisconnect_port (d : Dev S R X) (n : S) : (d.handleDisconnect n).port = d.port := by
  unfold handleDisconnect; split <;> rfl
@[simp] theorem handleDisconnect_connectPending (d : Dev S R X) (n : S) : (d.handleDisconnect n).connectPending = d.connectPending := by
  unfold handleDisconnect; split <;> rfl
@[simp] theorem handleDisconnect_resetPending (d : Dev S R X) (n : S) : (d.handleDisconnect n).resetPending = d.resetPending := by
  unfold handleDisconnect; split <;> rfl
@[simp] theorem handleDisconnect_dataPending (d : Dev S R X) (n : S) : (d.handleDisconnect n).dataPending = d.dataPending := by
  unfold handleDisconnect; split <;> rfl
@[simp] theorem handleDisconnect_ipConnected (d : Dev S R X) (n : S) : (d.handleDisconnect n).ipConnected = d.ipConnected := by
  unfold handleDisconnect; split <;> rfl
@[simp] theorem handleDisconnect_lineRead (d : Dev S R X) (n : S) : (d.handleDisconnect n).lineRead = d.lineRead := by
  unfold handleDisconnect; split <;> rfl
@[simp] theorem handleDisconnect_serialLocked (d : Dev S R X) (n : S) : (d.handleDisconnect n).serialLocked = d.serialLocked := by
  unfold handleDisconnect; split <;> rfl
@[simp] theorem handleDisconnect_cs (d : Dev S R X) (n : S) : (d.handleDisconnect n).cs = d.cs := by
  unfold handleDisconnect; split <;> rfl
@[simp] theorem handleDisconnect_wait (d : Dev S R X) (n : S) : (d.handleDisconnect n).wait = d.wait := by
  unfold handleDisconnect; split <;> rfl
@[simp] theorem handleDisconnect_line (d : Dev S R X) (n : S) : (d.handleDisconnect n).line = d.line := by
  unfold handleDisconnect; split <;> rfl
@[simp] theorem handleDisconnect_lbFill (d : Dev S R X) (n : S) : (d.handleDisconnect n).lbFill = d.lbFill := by
  unfold handleDisconnect; split <;> rfl
@[simp] theorem handleDisconnect_rep (d : Dev S R X) (n : S) : (d.handleDisconnect n).rep = d.rep := by
  unfold handleDisconnect; split <;> rfl
@[simp] theorem handleDisconnect_bytesToWrite (d : Dev S R X) (n : S) : (d.handleDisconnect n).bytesToWrite = d.bytesToWrite := by
  unfold handleDisconnect; split <;> rfl
@[simp] theorem handleDisconnect_bytesToReceive (d : Dev S R X) (n : S) : (d.handleDisconnect n).bytesToReceive = d.bytesToReceive := by
  unfold handleDisconnect; split <;> rfl
@[simp] theorem handleDisconnect_bytesToRead (d : Dev S R X) (n : S) : (d.handleDisconnect n).bytesToRead = d.bytesToRead := by
  unfold handleDisconnect; split <;> rfl
@[simp] theorem handleDisconnect_rssi (d : Dev S R X) (n : S) : (d.handleDisconnect n).rssi = d.rssi := by
  unfold handleDisconnect; split <;> rfl
@[simp] theorem handleDisconnect_delay (d : Dev S R X) (n : S) : (d.handleDisconnect n).delay = d.delay := by
  unfold handleDisconnect; split <;> rfl
@[simp] theorem handleDisconnect_ub (d : Dev S R X) (n : S) : (d.handleDisconnect n).ub = d.ub := by
  unfold handleDisconnect; split <;> rfl
@[simp] theorem handleDisconnect_trace (d : Dev S R X) (n : S) : (d.handleDisconnect n).trace = d.trace := by
  unfold handleDisconnect; split <;> rfl
@[simp] theorem handleDisconnect_ext (d : Dev S R X) (n : S) : (d.handleDisconnect n).ext = d.ext := by
  unfold handleDisconnect; split <;> rfl

end handleDisconnect

section handleConnect

@[simp] theorem handleConnect_ser (d : Dev S R X) (n : S) : (d.handleConnect n).ser = d.ser := by
  unfold handleConnect; split <;> rfl
@[simp] theorem handleConnect_isOpen (d : Dev S R X) (n : S) : (d.handleConnect n).isOpen = d.isOpen := by
  unfold handleConnect; split <;> rfl
@[simp] theorem handleConnect_rbuf (d : Dev S R X) (n : S) : (d.handleConnect n).rbuf = d.rbuf := by
  unfold handleConnect; split <;> rfl
@[simp] theorem handleConnect_wbuf (d : Dev S R X) (n : S) : (d.handleConnect n).wbuf = d.wbuf := by
  unfold handleConnect; split <;> rfl
@[simp] theorem handleConnect_typ (d : Dev S R X) (n : S) : (d.handleConnect n).typ = d.typ := by
  unfold handleConnect; split <;> rfl
@[simp] theorem handleConnect_host (d : Dev S R X) (n : S) : (d.handleConnect n).host = d.host := by
  unfold handleConnect; split <;> rfl
@[simp] theorem handleConnect_port (d : Dev S R X) (n : S) : (d.handleConnect n).port = d.port := by
  unfold handleConnect; split <;> rfl
@[simp] theorem handleConnect_resetPending (d : Dev S R X) (n : S) : (d.handleConnect n).resetPending = d.resetPending := by
  unfold handleConnect; split <;> rfl
@[simp] theorem handleConnect_dataPending (d : Dev S R X) (n : S) : (d.handleConnect n).dataPending = d.dataPending := by
  unfold handleConnect; split <;> rfl
@[simp] theorem handleConnect_disconnectPending (d : Dev S R X) (n : S) : (d.handleConnect n).disconnectPending = d.disconnectPending := by
  unfold handleConnect; split <;> rfl
@[simp] theorem handleConnect_ipConnected (d : Dev S R X) (n : S) : (d.handleConnect n).ipConnected = d.ipConnected := by
  unfold handleConnect; split <;> rfl
@[simp] theorem handleConnect_lineRead (d : Dev S R X) (n : S) : (d.handleConnect n).lineRead = d.lineRead := by
  unfold handleConnect; split <;> rfl
@[simp] theorem handleConnect_serialLocked (d : Dev S R X) (n : S) : (d.handleConnect n).serialLocked = d.serialLocked := by
  unfold handleConnect; split <;> rfl
@[simp] theorem handleConnect_cs (d : Dev S R X) (n : S) : (d.handleConnect n).cs = d.cs := by
  unfold handleConnect; split <;> rfl
@[simp] theorem handleConnect_wait (d : Dev S R X) (n : S) : (d.handleConnect n).wait = d.wait := by
  unfold handleConnect; split <;> rfl
@[simp] theorem handleConnect_line (d : Dev S R X) (n : S) : (d.handleConnect n).line = d.line := by
  unfold handleConnect; split <;> rfl
@[simp] theorem handleConnect_lbFill (d : Dev S R X) (n : S) : (d.handleConnect n).lbFill = d.lbFill := by
  unfold handleConnect; split <;> rfl
@[simp] theorem handleConnect_rep (d : Dev S R X) (n : S) : (d.handleConnect n).rep = d.rep := by
  unfold handleConnect; split <;> rfl
@[simp] theorem handleConnect_bytesToWrite (d : Dev S R X) (n : S) : (d.handleConnect n).bytesToWrite = d.bytesToWrite := by
  unfold handleConnect; split <;> rfl
@[simp] theorem handleConnect_bytesToReceive (d : Dev S R X) (n : S) : (d.handleConnect n).bytesToReceive = d.bytesToReceive := by
  unfold handleConnect; split <;> rfl
@[simp] theorem handleConnect_bytesToRead (d : Dev S R X) (n : S) : (d.handleConnect n).bytesToRead = d.bytesToRead := by
  unfold handleConnect; split <;> rfl
@[simp] theorem handleConnect_rssi (d : Dev S R X) (n : S) : (d.handleConnect n).rssi = d.rssi := by
  unfold handleConnect; split <;> rfl
@[simp] theorem handleConnect_delay (d : Dev S R X) (n : S) : (d.handleConnect n).delay = d.delay := by
  unfold handleConnect; split <;> rfl
@[simp] theorem handleConnect_ub (d : Dev S R X) (n : S) : (d.handleConnect n).ub = d.ub := by
  unfold handleConnect; split <;> rfl
@[simp] theorem handleConnect_trace (d : Dev S R X) (n : S) : (d.handleConnect n).trace = d.trace := by
  unfold handleConnect; split <;> rfl
@[simp] theorem handleConnect_ext (d : Dev S R X) (n : S) : (d.handleConnect n).ext = d.ext := by
  unfold handleConnect; split <;> rfl

end handleConnect

section receive

@[simp] theorem receive_isOpen (d : Dev S R X) : (d.receive.1).isOpen = d.isOpen := by
  unfold receive; split <;> rfl
@[simp] theorem receive_wbuf (d : Dev S R X) : (d.receive.1).wbuf = d.wbuf := by
  unfold receive; split <;> rfl
@[simp] theorem receive_typ (d : Dev S R X) : (d.receive.1).typ = d.typ := by
  unfold receive; split <;> rfl
@[simp] theorem receive_host (d : Dev S R X) : (d.receive.1).host = d.host := by
  unfold receive; split <;> rfl
@[simp] theorem receive_port (d : Dev S R X) : (d.receive.1).port = d.port := by
  unfold receive; split <;> rfl
@[simp] theorem receive_connectPending (d : Dev S R X) : (d.receive.1).connectPending = d.connectPending := by
  unfold receive; split <;> rfl
@[simp] theorem receive_resetPending (d : Dev S R X) : (d.receive.1).resetPending = d.resetPending := by
  unfold receive; split <;> rfl
@[simp] theorem receive_dataPending (d : Dev S R X) : (d.receive.1).dataPending = d.dataPending := by
  unfold receive; split <;> rfl
@[simp] theorem receive_disconnectPending (d : Dev S R X) : (d.receive.1).disconnectPending = d.disconnectPending := by
  unfold receive; split <;> rfl
@[simp] theorem receive_ipConnected (d : Dev S R X) : (d.receive.1).ipConnected = d.ipConnected := by
  unfold receive; split <;> rfl
@[simp] theorem receive_serialLocked (d : Dev S R X) : (d.receive.1).serialLocked = d.serialLocked := by
  unfold receive; split <;> rfl
@[simp] theorem receive_cs (d : Dev S R X) : (d.receive.1).cs = d.cs := by
  unfold receive; split <;> rfl
@[simp] theorem receive_wait (d : Dev S R X) : (d.receive.1).wait = d.wait := by
  unfold receive; split <;> rfl
@[simp] theorem receive_line (d : Dev S R X) : (d.receive.1).line = d.line := by
  unfold receive; split <;> rfl
@[simp] theorem receive_lbFill (d : Dev S R X) : (d.receive.1).lbFill = d.lbFill := by
  unfold receive; split <;> rfl
@[simp] theorem receive_snd (d : Dev S R X) : (d.receive.1).snd = d.snd := by
  unfold receive; split <;> rfl
@[simp] theorem receive_rep (d : Dev S R X) : (d.receive.1).rep = d.rep := by
  unfold receive; split <;> rfl
@[simp] theorem receive_bytesToWrite (d : Dev S R X) : (d.receive.1).bytesToWrite = d.bytesToWrite := by
  unfold receive; split <;> rfl
@[simp] theorem receive_bytesToReceive (d : Dev S R X) : (d.receive.1).bytesToReceive = d.bytesToReceive := by
  unfold receive; split <;> rfl
@[simp] theorem receive_rssi (d : Dev S R X) : (d.receive.1).rssi = d.rssi := by
  unfold receive; split <;> rfl
@[simp] theorem receive_delay (d : Dev S R X) : (d.receive.1).delay = d.delay := by
  unfold receive; split <;> rfl
@[simp] theorem receive_ub (d : Dev S R X) : (d.receive.1).ub = d.ub := by
  unfold receive; split <;> rfl
@[simp] theorem receive_ext (d : Dev S R X) : (d.receive.1).ext = d.ext := by
  unfold receive; split <;> rfl

end receive

section prepareSending

@[simp] theorem prepareSending_isOpen (d : Dev S R X) (b : Bool) : ((d.prepareSending b).1).isOpen = d.isOpen := by
  unfold prepareSending; dsimp only; split <;> (repeat' split) <;> rfl
@[simp] theorem prepareSending_rbuf (d : Dev S R X) (b : Bool) : ((d.prepareSending b).1).rbuf = d.rbuf := by
  unfold prepareSending; dsimp only; split <;> (repeat' split) <;> rfl
@[simp] theorem prepareSending_wbuf (d : Dev S R X) (b : Bool) : ((d.prepareSending b).1).wbuf = d.wbuf := by
  unfold prepareSending; dsimp only; split <;> (repeat' split) <;> rfl
@[simp] theorem prepareSending_typ (d : Dev S R X) (b : Bool) : ((d.prepareSending b).1).typ = d.typ := by
  unfold prepareSending; dsimp only; split <;> (repeat' split) <;> rfl
@[simp] theorem prepareSending_host (d : Dev S R X) (b : Bool) : ((d.prepareSending b).1).host = d.host := by
  unfold prepareSending; dsimp only; split <;> (repeat' split) <;> rfl
@[simp] theorem prepareSending_port (d : Dev S R X) (b : Bool) : ((d.prepareSending b).1).port = d.port := by
  unfold prepareSending; dsimp only; split <;> (repeat' split) <;> rfl
@[simp] theorem prepareSending_connectPending (d : Dev S R X) (b : Bool) : ((d.prepareSending b).1).connectPending = d.connectPending := by
  unfold prepareSending; dsimp only; split <;> (repeat' split) <;> rfl
@[simp] theorem prepareSending_resetPending (d : Dev S R X) (b : Bool) : ((d.prepareSending b).1).resetPending = d.resetPending := by
  unfold prepareSending; dsimp only; split <;> (repeat' split) <;> rfl
@[simp] theorem prepareSending_dataPending (d : Dev S R X) (b : Bool) : ((d.prepareSending b).1).dataPending = d.dataPending := by
  unfold prepareSending; dsimp only; split <;> (repeat' split) <;> rfl
@[simp] theorem prepareSending_disconnectPending (d : Dev S R X) (b : Bool) : ((d.prepareSending b).1).disconnectPending = d.disconnectPending := by
  unfold prepareSending; dsimp only; split <;> (repeat' split) <;> rfl
@[simp] theorem prepareSending_ipConnected (d : Dev S R X) (b : Bool) : ((d.prepareSending b).1).ipConnected = d.ipConnected := by
  unfold prepareSending; dsimp only; split <;> (repeat' split) <;> rfl
@[simp] theorem prepareSending_lineRead (d : Dev S R X) (b : Bool) : ((d.prepareSending b).1).lineRead = d.lineRead := by
  unfold prepareSending; dsimp only; split <;> (repeat' split) <;> rfl
@[simp] theorem prepareSending_serialLocked (d : Dev S R X) (b : Bool) : ((d.prepareSending b).1).serialLocked = d.serialLocked := by
  unfold prepareSending; dsimp only; split <;> (repeat' split) <;> rfl
@[simp] theorem prepareSending_cs (d : Dev S R X) (b : Bool) : ((d.prepareSending b).1).cs = d.cs := by
  unfold prepareSending; dsimp only; split <;> (repeat' split) <;> rfl
@[simp] theorem prepareSending_line (d : Dev S R X) (b : Bool) : ((d.prepareSending b).1).line = d.line := by
  unfold prepareSending; dsimp only; split <;> (repeat' split) <;> rfl
@[simp] theorem prepareSending_lbFill (d : Dev S R X) (b : Bool) : ((d.prepareSending b).1).lbFill = d.lbFill := by
  unfold prepareSending; dsimp only; split <;> (repeat' split) <;> rfl
@[simp] theorem prepareSending_snd (d : Dev S R X) (b : Bool) : ((d.prepareSending b).1).snd = d.snd := by
  unfold prepareSending; dsimp only; split <;> (repeat' split) <;> rfl
@[simp] theorem prepareSending_rep (d : Dev S R X) (b : Bool) : ((d.prepareSending b).1).rep = d.rep := by
  unfold prepareSending; dsimp only; split <;> (repeat' split) <;> rfl
@[simp] theorem prepareSending_bytesToReceive (d : Dev S R X) (b : Bool) : ((d.prepareSending b).1).bytesToReceive = d.bytesToReceive := by
  unfold prepareSending; dsimp only; split <;> (repeat' split) <;> rfl
@[simp] theorem prepareSending_bytesToRead (d : Dev S R X) (b : Bool) : ((d.prepareSending b).1).bytesToRead = d.bytesToRead := by
  unfold prepareSending; dsimp only; split <;> (repeat' split) <;> rfl
@[simp] theorem prepareSending_rssi (d : Dev S R X) (b : Bool) : ((d.prepareSending b).1).rssi = d.rssi := by
  unfold prepareSending; dsimp only; split <;> (repeat' split) <;> rfl
@[simp] theorem prepareSending_delay (d : Dev S R X) (b : Bool) : ((d.prepareSending b).1).delay = d.delay := by
  unfold prepareSending; dsimp only; split <;> (repeat' split) <;> rfl
@[simp] theorem prepareSending_ub (d : Dev S R X) (b : Bool) : ((d.prepareSending b).1).ub = d.ub := by
  unfold prepareSending; dsimp only; split <;> (repeat' split) <;> rfl
@[simp] theorem prepareSending_ext (d : Dev S R X) (b : Bool) : ((d.prepareSending b).1).ext = d.ext := by
  unfold prepareSending; dsimp only; split <;> (repeat' split) <;> rfl

end prepareSending

section fillLine

@[simp] theorem fillLine_isOpen (d : Dev S R X) (stop : Mem → Nat → Byte → Option R) : ((d.fillLine stop).1).isOpen = d.isOpen := by
  unfold fillLine; dsimp only; split <;> (try split) <;> rfl
@[simp] theorem fillLine_rbuf (d : Dev S R X) (stop : Mem → Nat → Byte → Option R) : ((d.fillLine stop).1).rbuf = d.rbuf := by
  unfold fillLine; dsimp only; split <;> (try split) <;> rfl
@[simp] theorem fillLine_wbuf (d : Dev S R X) (stop : Mem → Nat → Byte → Option R) : ((d.fillLine stop).1).wbuf = d.wbuf := by
  unfold fillLine; dsimp only; split <;> (try split) <;> rfl
@[simp] theorem fillLine_typ (d : Dev S R X) (stop : Mem → Nat → Byte → Option R) : ((d.fillLine stop).1).typ = d.typ := by
  unfold fillLine; dsimp only; split <;> (try split) <;> rfl
@[simp] theorem fillLine_host (d : Dev S R X) (stop : Mem → Nat → Byte → Option R) : ((d.fillLine stop).1).host = d.host := by
  unfold fillLine; dsimp only; split <;> (try split) <;> rfl
@[simp] theorem fillLine_port (d : Dev S R X) (stop : Mem → Nat → Byte → Option R) : ((d.fillLine stop).1).port = d.port := by
  unfold fillLine; dsimp only; split <;> (try split) <;> rfl
@[simp] theorem fillLine_connectPending (d : Dev S R X) (stop : Mem → Nat → Byte → Option R) : ((d.fillLine stop).1).connectPending = d.connectPending := by
  unfold fillLine; dsimp only; split <;> (try split) <;> rfl
@[simp] theorem fillLine_resetPending (d : Dev S R X) (stop : Mem → Nat → Byte → Option R) : ((d.fillLine stop).1).resetPending = d.resetPending := by
  unfold fillLine; dsimp only; split <;> (try split) <;> rfl
@[simp] theorem fillLine_dataPending (d : Dev S R X) (stop : Mem → Nat → Byte → Option R) : ((d.fillLine stop).1).dataPending = d.dataPending := by
  unfold fillLine; dsimp only; split <;> (try split) <;> rfl
@[simp] theorem fillLine_disconnectPending (d : Dev S R X) (stop : Mem → Nat → Byte → Option R) : ((d.fillLine stop).1).disconnectPending = d.disconnectPending := by
  unfold fillLine; dsimp only; split <;> (try split) <;> rfl
@[simp] theorem fillLine_ipConnected (d : Dev S R X) (stop : Mem → Nat → Byte → Option R) : ((d.fillLine stop).1).ipConnected = d.ipConnected := by
  unfold fillLine; dsimp only; split <;> (try split) <;> rfl
@[simp] theorem fillLine_lineRead (d : Dev S R X) (stop : Mem → Nat → Byte → Option R) : ((d.fillLine stop).1).lineRead = d.lineRead := by
  unfold fillLine; dsimp only; split <;> (try split) <;> rfl
@[simp] theorem fillLine_serialLocked (d : Dev S R X) (stop : Mem → Nat → Byte → Option R) : ((d.fillLine stop).1).serialLocked = d.serialLocked := by
  unfold fillLine; dsimp only; split <;> (try split) <;> rfl
@[simp] theorem fillLine_cs (d : Dev S R X) (stop : Mem → Nat → Byte → Option R) : ((d.fillLine stop).1).cs = d.cs := by
  unfold fillLine; dsimp only; split <;> (try split) <;> rfl
@[simp] theorem fillLine_wait (d : Dev S R X) (stop : Mem → Nat → Byte → Option R) : ((d.fillLine stop).1).wait = d.wait := by
  unfold fillLine; dsimp only; split <;> (try split) <;> rfl
@[simp] theorem fillLine_snd (d : Dev S R X) (stop : Mem → Nat → Byte → Option R) : ((d.fillLine stop).1).snd = d.snd := by
  unfold fillLine; dsimp only; split <;> (try split) <;> rfl
@[simp] theorem fillLine_bytesToWrite (d : Dev S R X) (stop : Mem → Nat → Byte → Option R) : ((d.fillLine stop).1).bytesToWrite = d.bytesToWrite := by
  unfold fillLine; dsimp only; split <;> (try split) <;> rfl
@[simp] theorem fillLine_bytesToReceive (d : Dev S R X) (stop : Mem → Nat → Byte → Option R) : ((d.fillLine stop).1).bytesToReceive = d.bytesToReceive := by
  unfold fillLine; dsimp only; split <;> (try split) <;> rfl
@[simp] theorem fillLine_bytesToRead (d : Dev S R X) (stop : Mem → Nat → Byte → Option R) : ((d.fillLine stop).1).bytesToRead = d.bytesToRead := by
  unfold fillLine; dsimp only; split <;> (try split) <;> rfl
@[simp] theorem fillLine_rssi (d : Dev S R X) (stop : Mem → Nat → Byte → Option R) : ((d.fillLine stop).1).rssi = d.rssi := by
  unfold fillLine; dsimp only; split <;> (try split) <;> rfl
@[simp] theorem fillLine_delay (d : Dev S R X) (stop : Mem → Nat → Byte → Option R) : ((d.fillLine stop).1).delay = d.delay := by
  unfold fillLine; dsimp only; split <;> (try split) <;> rfl
@[simp] theorem fillLine_ub (d : Dev S R X) (stop : Mem → Nat → Byte → Option R) : ((d.fillLine stop).1).ub = d.ub := by
  unfold fillLine; dsimp only; split <;> (try split) <;> rfl
@[simp] theorem fillLine_ext (d : Dev S R X) (stop : Mem → Nat → Byte → Option R) : ((d.fillLine stop).1).ext = d.ext := by
  unfold fillLine; dsimp only; split <;> (try split) <;> rfl

end fillLine

section ipConnect

@[simp] theorem ipConnect_ser (d : Dev S R X) : (d.ipConnect.1).ser = d.ser := by
  unfold ipConnect; split <;> rfl
@[simp] theorem ipConnect_isOpen (d : Dev S R X) : (d.ipConnect.1).isOpen = d.isOpen := by
  unfold ipConnect; split <;> rfl
@[simp] theorem ipConnect_rbuf (d : Dev S R X) : (d.ipConnect.1).rbuf = d.rbuf := by
  unfold ipConnect; split <;> rfl
@[simp] theorem ipConnect_wbuf (d : Dev S R X) : (d.ipConnect.1).wbuf = d.wbuf := by
  unfold ipConnect; split <;> rfl
@[simp] theorem ipConnect_typ (d : Dev S R X) : (d.ipConnect.1).typ = d.typ := by
  unfold ipConnect; split <;> rfl
@[simp] theorem ipConnect_host (d : Dev S R X) : (d.ipConnect.1).host = d.host := by
  unfold ipConnect; split <;> rfl
@[simp] theorem ipConnect_port (d : Dev S R X) : (d.ipConnect.1).port = d.port := by
  unfold ipConnect; split <;> rfl
@[simp] theorem ipConnect_resetPending (d : Dev S R X) : (d.ipConnect.1).resetPending = d.resetPending := by
  unfold ipConnect; split <;> rfl
@[simp] theorem ipConnect_dataPending (d : Dev S R X) : (d.ipConnect.1).dataPending = d.dataPending := by
  unfold ipConnect; split <;> rfl
@[simp] theorem ipConnect_disconnectPending (d : Dev S R X) : (d.ipConnect.1).disconnectPending = d.disconnectPending := by
  unfold ipConnect; split <;> rfl
@[simp] theorem ipConnect_ipConnected (d : Dev S R X) : (d.ipConnect.1).ipConnected = d.ipConnected := by
  unfold ipConnect; split <;> rfl
@[simp] theorem ipConnect_lineRead (d : Dev S R X) : (d.ipConnect.1).lineRead = d.lineRead := by
  unfold ipConnect; split <;> rfl
@[simp] theorem ipConnect_serialLocked (d : Dev S R X) : (d.ipConnect.1).serialLocked = d.serialLocked := by
  unfold ipConnect; split <;> rfl
@[simp] theorem ipConnect_cs (d : Dev S R X) : (d.ipConnect.1).cs = d.cs := by
  unfold ipConnect; split <;> rfl
@[simp] theorem ipConnect_wait (d : Dev S R X) : (d.ipConnect.1).wait = d.wait := by
  unfold ipConnect; split <;> rfl
@[simp] theorem ipConnect_line (d : Dev S R X) : (d.ipConnect.1).line = d.line := by
  unfold ipConnect; split <;> rfl
@[simp] theorem ipConnect_lbFill (d : Dev S R X) : (d.ipConnect.1).lbFill = d.lbFill := by
  unfold ipConnect; split <;> rfl
@[simp] theorem ipConnect_snd (d : Dev S R X) : (d.ipConnect.1).snd = d.snd := by
  unfold ipConnect; split <;> rfl
@[simp] theorem ipConnect_rep (d : Dev S R X) : (d.ipConnect.1).rep = d.rep := by
  unfold ipConnect; split <;> rfl
@[simp] theorem ipConnect_bytesToWrite (d : Dev S R X) : (d.ipConnect.1).bytesToWrite = d.bytesToWrite := by
  unfold ipConnect; split <;> rfl
@[simp] theorem ipConnect_bytesToReceive (d : Dev S R X) : (d.ipConnect.1).bytesToReceive = d.bytesToReceive := by
  unfold ipConnect; split <;> rfl
@[simp] theorem ipConnect_bytesToRead (d : Dev S R X) : (d.ipConnect.1).bytesToRead = d.bytesToRead := by
  unfold ipConnect; split <;> rfl
@[simp] theorem ipConnect_rssi (d : Dev S R X) : (d.ipConnect.1).rssi = d.rssi := by
  unfold ipConnect; split <;> rfl
@[simp] theorem ipConnect_delay (d : Dev S R X) : (d.ipConnect.1).delay = d.delay := by
  unfold ipConnect; split <;> rfl
@[simp] theorem ipConnect_ub (d : Dev S R X) : (d.ipConnect.1).ub = d.ub := by
  unfold ipConnect; split <;> rfl
@[simp] theorem ipConnect_trace (d : Dev S R X) : (d.ipConnect.1).trace = d.trace := by
  unfold ipConnect; split <;> rfl
@[simp] theorem ipConnect_ext (d : Dev S R X) : (d.ipConnect.1).ext = d.ext := by
  unfold ipConnect; split <;> rfl

end ipConnect

section disconnect

@[simp] theorem disconnect_ser (d : Dev S R X) : (d.disconnect).ser = d.ser := by
  unfold disconnect; split <;> rfl
@[simp] theorem disconnect_isOpen (d : Dev S R X) : (d.disconnect).isOpen = d.isOpen := by
  unfold disconnect; split <;> rfl
@[simp] theorem disconnect_rbuf (d : Dev S R X) : (d.disconnect).rbuf = d.rbuf := by
  unfold disconnect; split <;> rfl
@[simp] theorem disconnect_wbuf (d : Dev S R X) : (d.disconnect).wbuf = d.wbuf := by
  unfold disconnect; split <;> rfl
@[simp] theorem disconnect_typ (d : Dev S R X) : (d.disconnect).typ = d.typ := by
  unfold disconnect; split <;> rfl
@[simp] theorem disconnect_host (d : Dev S R X) : (d.disconnect).host = d.host := by
  unfold disconnect; split <;> rfl
@[simp] theorem disconnect_port (d : Dev S R X) : (d.disconnect).port = d.port := by
  unfold disconnect; split <;> rfl
@[simp] theorem disconnect_connectPending (d : Dev S R X) : (d.disconnect).connectPending = d.connectPending := by
  unfold disconnect; split <;> rfl
@[simp] theorem disconnect_resetPending (d : Dev S R X) : (d.disconnect).resetPending = d.resetPending := by
  unfold disconnect; split <;> rfl
@[simp] theorem disconnect_dataPending (d : Dev S R X) : (d.disconnect).dataPending = d.dataPending := by
  unfold disconnect; split <;> rfl
@[simp] theorem disconnect_ipConnected (d : Dev S R X) : (d.disconnect).ipConnected = d.ipConnected := by
  unfold disconnect; split <;> rfl
@[simp] theorem disconnect_lineRead (d : Dev S R X) : (d.disconnect).lineRead = d.lineRead := by
  unfold disconnect; split <;> rfl
@[simp] theorem disconnect_serialLocked (d : Dev S R X) : (d.disconnect).serialLocked = d.serialLocked := by
  unfold disconnect; split <;> rfl
@[simp] theorem disconnect_cs (d : Dev S R X) : (d.disconnect).cs = d.cs := by
  unfold disconnect; split <;> rfl
@[simp] theorem disconnect_wait (d : Dev S R X) : (d.disconnect).wait = d.wait := by
  unfold disconnect; split <;> rfl
@[simp] theorem disconnect_line (d : Dev S R X) : (d.disconnect).line = d.line := by
  unfold disconnect; split <;> rfl
@[simp] theorem disconnect_lbFill (d : Dev S R X) : (d.disconnect).lbFill = d.lbFill := by
  unfold disconnect; split <;> rfl
@[simp] theorem disconnect_snd (d : Dev S R X) : (d.disconnect).snd = d.snd := by
  unfold disconnect; split <;> rfl
@[simp] theorem disconnect_rep (d : Dev S R X) : (d.disconnect).rep = d.rep := by
  unfold disconnect; split <;> rfl
@[simp] theorem disconnect_bytesToWrite (d : Dev S R X) : (d.disconnect).bytesToWrite = d.bytesToWrite := by
  unfold disconnect; split <;> rfl
@[simp] theorem disconnect_bytesToReceive (d : Dev S R X) : (d.disconnect).bytesToReceive = d.bytesToReceive := by
  unfold disconnect; split <;> rfl
@[simp] theorem disconnect_bytesToRead (d : Dev S R X) : (d.disconnect).bytesToRead = d.bytesToRead := by
  unfold disconnect; split <;> rfl
@[simp] theorem disconnect_rssi (d : Dev S R X) : (d.disconnect).rssi = d.rssi := by
  unfold disconnect; split <;> rfl
@[simp] theorem disconnect_delay (d : Dev S R X) : (d.disconnect).delay = d.delay := by
  unfold disconnect; split <;> rfl
@[simp] theorem disconnect_ub (d : Dev S R X) : (d.disconnect).ub = d.ub := by
  unfold disconnect; split <;> rfl
@[simp] theorem disconnect_trace (d : Dev S R X) : (d.disconnect).trace = d.trace := by
  unfold disconnect; split <;> rfl
@[simp] theorem disconnect_ext (d : Dev S R X) : (d.disconnect).ext = d.ext := by
  unfold disconnect; split <;> rfl

end disconnect

section read

@[simp] theorem read_ser (d : Dev S R X) (n : Nat) : ((d.read n).1).ser = d.ser := rfl
@[simp] theorem read_isOpen (d : Dev S R X) (n : Nat) : ((d.read n).1).isOpen = d.isOpen := rfl
@[simp] theorem read_wbuf (d : Dev S R X) (n : Nat) : ((d.read n).1).wbuf = d.wbuf := rfl
@[simp] theorem read_typ (d : Dev S R X) (n : Nat) : ((d.read n).1).typ = d.typ := rfl
@[simp] theorem read_host (d : Dev S R X) (n : Nat) : ((d.read n).1).host = d.host := rfl
@[simp] theorem read_port (d : Dev S R X) (n : Nat) : ((d.read n).1).port = d.port := rfl
@[simp] theorem read_connectPending (d : Dev S R X) (n : Nat) : ((d.read n).1).connectPending = d.connectPending := rfl
@[simp] theorem read_resetPending (d : Dev S R X) (n : Nat) : ((d.read n).1).resetPending = d.resetPending := rfl
@[simp] theorem read_dataPending (d : Dev S R X) (n : Nat) : ((d.read n).1).dataPending = d.dataPending := rfl
@[simp] theorem read_disconnectPending (d : Dev S R X) (n : Nat) : ((d.read n).1).disconnectPending = d.disconnectPending := rfl
@[simp] theorem read_ipConnected (d : Dev S R X) (n : Nat) : ((d.read n).1).ipConnected = d.ipConnected := rfl
@[simp] theorem read_lineRead (d : Dev S R X) (n : Nat) : ((d.read n).1).lineRead = d.lineRead := rfl
@[simp] theorem read_serialLocked (d : Dev S R X) (n : Nat) : ((d.read n).1).serialLocked = d.serialLocked := rfl
@[simp] theorem read_cs (d : Dev S R X) (n : Nat) : ((d.read n).1).cs = d.cs := rfl
@[simp] theorem read_wait (d : Dev S R X) (n : Nat) : ((d.read n).1).wait = d.wait := rfl
@[simp] theorem read_line (d : Dev S R X) (n : Nat) : ((d.read n).1).line = d.line := rfl
@[simp] theorem read_lbFill (d : Dev S R X) (n : Nat) : ((d.read n).1).lbFill = d.lbFill := rfl
@[simp] theorem read_snd (d : Dev S R X) (n : Nat) : ((d.read n).1).snd = d.snd := rfl
@[simp] theorem read_rep (d : Dev S R X) (n : Nat) : ((d.read n).1).rep = d.rep := rfl
@[simp] theorem read_bytesToWrite (d : Dev S R X) (n : Nat) : ((d.read n).1).bytesToWrite = d.bytesToWrite := rfl
@[simp] theorem read_bytesToReceive (d : Dev S R X) (n : Nat) : ((d.read n).1).bytesToReceive = d.bytesToReceive := rfl
@[simp] theorem read_bytesToRead (d : Dev S R X) (n : Nat) : ((d.read n).1).bytesToRead = d.bytesToRead := rfl
@[simp] theorem read_rssi (d : Dev S R X) (n : Nat) : ((d.read n).1).rssi = d.rssi := rfl
@[simp] theorem read_delay (d : Dev S R X) (n : Nat) : ((d.read n).1).delay = d.delay := rfl
@[simp] theorem read_ub (d : Dev S R X) (n : Nat) : ((d.read n).1).ub = d.ub := rfl
@[simp] theorem read_trace (d : Dev S R X) (n : Nat) : ((d.read n).1).trace = d.trace := rfl
@[simp] theorem read_ext (d : Dev S R X) (n : Nat) : ((d.read n).1).ext = d.ext := rfl

end read

section write

@[simp] theorem write_ser (d : Dev S R X) (b : List Byte) : ((d.write b).1).ser = d.ser := by
  unfold write; split <;> rfl
@[simp] theorem write_isOpen (d : Dev S R X) (b : List Byte) : ((d.write b).1).isOpen = d.isOpen := by
  unfold write; split <;> rfl
@[simp] theorem write_rbuf (d : Dev S R X) (b : List Byte) : ((d.write b).1).rbuf = d.rbuf := by
  unfold write; split <;> rfl
@[simp] theorem write_typ (d : Dev S R X) (b : List Byte) : ((d.write b).1).typ = d.typ := by
  unfold write; split <;> rfl
@[simp] theorem write_host (d : Dev S R X) (b : List Byte) : ((d.write b).1).host = d.host := by
  unfold write; split <;> rfl
@[simp] theorem write_port (d : Dev S R X) (b : List Byte) : ((d.write b).1).port = d.port := by
  unfold write; split <;> rfl
@[simp] theorem write_connectPending (d : Dev S R X) (b : List Byte) : ((d.write b).1).connectPending = d.connectPending := by
  unfold write; split <;> rfl
@[simp] theorem write_resetPending (d : Dev S R X) (b : List Byte) : ((d.write b).1).resetPending = d.resetPending := by
  unfold write; split <;> rfl
@[simp] theorem write_dataPending (d : Dev S R X) (b : List Byte) : ((d.write b).1).dataPending = d.dataPending := by
  unfold write; split <;> rfl
@[simp] theorem write_disconnectPending (d : Dev S R X) (b : List Byte) : ((d.write b).1).disconnectPending = d.disconnectPending := by
  unfold write; split <;> rfl
@[simp] theorem write_ipConnected (d : Dev S R X) (b : List Byte) : ((d.write b).1).ipConnected = d.ipConnected := by
  unfold write; split <;> rfl
@[simp] theorem write_lineRead (d : Dev S R X) (b : List Byte) : ((d.write b).1).lineRead = d.lineRead := by
  unfold write; split <;> rfl
@[simp] theorem write_serialLocked (d : Dev S R X) (b : List Byte) : ((d.write b).1).serialLocked = d.serialLocked := by
  unfold write; split <;> rfl
@[simp] theorem write_cs (d : Dev S R X) (b : List Byte) : ((d.write b).1).cs = d.cs := by
  unfold write; split <;> rfl
@[simp] theorem write_wait (d : Dev S R X) (b : List Byte) : ((d.write b).1).wait = d.wait := by
  unfold write; split <;> rfl
@[simp] theorem write_line (d : Dev S R X) (b : List Byte) : ((d.write b).1).line = d.line := by
  unfold write; split <;> rfl
@[simp] theorem write_lbFill (d : Dev S R X) (b : List Byte) : ((d.write b).1).lbFill = d.lbFill := by
  unfold write; split <;> rfl
@[simp] theorem write_snd (d : Dev S R X) (b : List Byte) : ((d.write b).1).snd = d.snd := by
  unfold write; split <;> rfl
@[simp] theorem write_rep (d : Dev S R X) (b : List Byte) : ((d.write b).1).rep = d.rep := by
  unfold write; split <;> rfl
@[simp] theorem write_bytesToWrite (d : Dev S R X) (b : List Byte) : ((d.write b).1).bytesToWrite = d.bytesToWrite := by
  unfold write; split <;> rfl
@[simp] theorem write_bytesToReceive (d : Dev S R X) (b : List Byte) : ((d.write b).1).bytesToReceive = d.bytesToReceive := by
  unfold write; split <;> rfl
@[simp] theorem write_bytesToRead (d : Dev S R X) (b : List Byte) : ((d.write b).1).bytesToRead = d.bytesToRead := by
  unfold write; split <;> rfl
@[simp] theorem write_rssi (d : Dev S R X) (b : List Byte) : ((d.write b).1).rssi = d.rssi := by
  unfold write; split <;> rfl
@[simp] theorem write_delay (d : Dev S R X) (b : List Byte) : ((d.write b).1).delay = d.delay := by
  unfold write; split <;> rfl
@[simp] theorem write_ub (d : Dev S R X) (b : List Byte) : ((d.write b).1).ub = d.ub := by
  unfold write; split <;> rfl
@[simp] theorem write_trace (d : Dev S R X) (b : List Byte) : ((d.write b).1).trace = d.trace := by
  unfold write; split <;> rfl
@[simp] theorem write_ext (d : Dev S R X) (b : List Byte) : ((d.write b).1).ext = d.ext := by
  unfold write; split <;> rfl

end write

section serialWrite

@[simp] theorem serialWrite_isOpen (d : Dev S R X) (b : List Byte) : ((d.serialWrite b).1).isOpen = d.isOpen := by
  unfold serialWrite; split <;> rfl
@[simp] theorem serialWrite_rbuf (d : Dev S R X) (b : List Byte) : ((d.serialWrite b).1).rbuf = d.rbuf := by
  unfold serialWrite; split <;> rfl
@[simp] theorem serialWrite_wbuf (d : Dev S R X) (b : List Byte) : ((d.serialWrite b).1).wbuf = d.wbuf := by
  unfold serialWrite; split <;> rfl
@[simp] theorem serialWrite_typ (d : Dev S R X) (b : List Byte) : ((d.serialWrite b).1).typ = d.typ := by
  unfold serialWrite; split <;> rfl
@[simp] theorem serialWrite_host (d : Dev S R X) (b : List Byte) : ((d.serialWrite b).1).host = d.host := by
  unfold serialWrite; split <;> rfl
@[simp] theorem serialWrite_port (d : Dev S R X) (b : List Byte) : ((d.serialWrite b).1).port = d.port := by
  unfold serialWrite; split <;> rfl
@[simp] theorem serialWrite_connectPending (d : Dev S R X) (b : List Byte) : ((d.serialWrite b).1).connectPending = d.connectPending := by
  unfold serialWrite; split <;> rfl
@[simp] theorem serialWrite_resetPending (d : Dev S R X) (b : List Byte) : ((d.serialWrite b).1).resetPending = d.resetPending := by
  unfold serialWrite; split <;> rfl
@[simp] theorem serialWrite_dataPending (d : Dev S R X) (b : List Byte) : ((d.serialWrite b).1).dataPending = d.dataPending := by
  unfold serialWrite; split <;> rfl
@[simp] theorem serialWrite_disconnectPending (d : Dev S R X) (b : List Byte) : ((d.serialWrite b).1).disconnectPending = d.disconnectPending := by
  unfold serialWrite; split <;> rfl
@[simp] theorem serialWrite_ipConnected (d : Dev S R X) (b : List Byte) : ((d.serialWrite b).1).ipConnected = d.ipConnected := by
  unfold serialWrite; split <;> rfl
@[simp] theorem serialWrite_lineRead (d : Dev S R X) (b : List Byte) : ((d.serialWrite b).1).lineRead = d.lineRead := by
  unfold serialWrite; split <;> rfl
@[simp] theorem serialWrite_serialLocked (d : Dev S R X) (b : List Byte) : ((d.serialWrite b).1).serialLocked = d.serialLocked := by
  unfold serialWrite; split <;> rfl
@[simp] theorem serialWrite_cs (d : Dev S R X) (b : List Byte) : ((d.serialWrite b).1).cs = d.cs := by
  unfold serialWrite; split <;> rfl
@[simp] theorem serialWrite_wait (d : Dev S R X) (b : List Byte) : ((d.serialWrite b).1).wait = d.wait := by
  unfold serialWrite; split <;> rfl
@[simp] theorem serialWrite_line (d : Dev S R X) (b : List Byte) : ((d.serialWrite b).1).line = d.line := by
  unfold serialWrite; split <;> rfl
@[simp] theorem serialWrite_lbFill (d : Dev S R X) (b : List Byte) : ((d.serialWrite b).1).lbFill = d.lbFill := by
  unfold serialWrite; split <;> rfl
@[simp] theorem serialWrite_snd (d : Dev S R X) (b : List Byte) : ((d.serialWrite b).1).snd = d.snd := by
  unfold serialWrite; split <;> rfl
@[simp] theorem serialWrite_rep (d : Dev S R X) (b : List Byte) : ((d.serialWrite b).1).rep = d.rep := by
  unfold serialWrite; split <;> rfl
@[simp] theorem serialWrite_bytesToWrite (d : Dev S R X) (b : List Byte) : ((d.serialWrite b).1).bytesToWrite = d.bytesToWrite := by
  unfold serialWrite; split <;> rfl
@[simp] theorem serialWrite_bytesToReceive (d : Dev S R X) (b : List Byte) : ((d.serialWrite b).1).bytesToReceive = d.bytesToReceive := by
  unfold serialWrite; split <;> rfl
@[simp] theorem serialWrite_bytesToRead (d : Dev S R X) (b : List Byte) : ((d.serialWrite b).1).bytesToRead = d.bytesToRead := by
  unfold serialWrite; split <;> rfl
@[simp] theorem serialWrite_rssi (d : Dev S R X) (b : List Byte) : ((d.serialWrite b).1).rssi = d.rssi := by
  unfold serialWrite; split <;> rfl
@[simp] theorem serialWrite_delay (d : Dev S R X) (b : List Byte) : ((d.serialWrite b).1).delay = d.delay := by
  unfold serialWrite; split <;> rfl
@[simp] theorem serialWrite_ub (d : Dev S R X) (b : List Byte) : ((d.serialWrite b).1).ub = d.ub := by
  unfold serialWrite; split <;> rfl
@[simp] theorem serialWrite_ext (d : Dev S R X) (b : List Byte) : ((d.serialWrite b).1).ext = d.ext := by
  unfold serialWrite; split <;> rfl

end serialWrite

section serialRead

@[simp] theorem serialRead_isOpen (d : Dev S R X) (n : Nat) : ((d.serialRead n).1).isOpen = d.isOpen := by
  unfold serialRead; split <;> rfl
@[simp] theorem serialRead_rbuf (d : Dev S R X) (n : Nat) : ((d.serialRead n).1).rbuf = d.rbuf := by
  unfold serialRead; split <;> rfl
@[simp] theorem serialRead_wbuf (d : Dev S R X) (n : Nat) : ((d.serialRead n).1).wbuf = d.wbuf := by
  unfold serialRead; split <;> rfl
@[simp] theorem serialRead_typ (d : Dev S R X) (n : Nat) : ((d.serialRead n).1).typ = d.typ := by
  unfold serialRead; split <;> rfl
@[simp] theorem serialRead_host (d : Dev S R X) (n : Nat) : ((d.serialRead n).1).host = d.host := by
  unfold serialRead; split <;> rfl
@[simp] theorem serialRead_port (d : Dev S R X) (n : Nat) : ((d.serialRead n).1).port = d.port := by
  unfold serialRead; split <;> rfl
@[simp] theorem serialRead_connectPending (d : Dev S R X) (n : Nat) : ((d.serialRead n).1).connectPending = d.connectPending := by
  unfold serialRead; split <;> rfl
@[simp] theorem serialRead_resetPending (d : Dev S R X) (n : Nat) : ((d.serialRead n).1).resetPending = d.resetPending := by
  unfold serialRead; split <;> rfl
@[simp] theorem serialRead_dataPending (d : Dev S R X) (n : Nat) : ((d.serialRead n).1).dataPending = d.dataPending := by
  unfold serialRead; split <;> rfl
@[simp] theorem serialRead_disconnectPending (d : Dev S R X) (n : Nat) : ((d.serialRead n).1).disconnectPending = d.disconnectPending := by
  unfold serialRead; split <;> rfl
@[simp] theorem serialRead_ipConnected (d : Dev S R X) (n : Nat) : ((d.serialRead n).1).ipConnected = d.ipConnected := by
  unfold serialRead; split <;> rfl
@[simp] theorem serialRead_lineRead (d : Dev S R X) (n : Nat) : ((d.serialRead n).1).lineRead = d.lineRead := by
  unfold serialRead; split <;> rfl
@[simp] theorem serialRead_serialLocked (d : Dev S R X) (n : Nat) : ((d.serialRead n).1).serialLocked = d.serialLocked := by
  unfold serialRead; split <;> rfl
@[simp] theorem serialRead_cs (d : Dev S R X) (n : Nat) : ((d.serialRead n).1).cs = d.cs := by
  unfold serialRead; split <;> rfl
@[simp] theorem serialRead_wait (d : Dev S R X) (n : Nat) : ((d.serialRead n).1).wait = d.wait := by
  unfold serialRead; split <;> rfl
@[simp] theorem serialRead_line (d : Dev S R X) (n : Nat) : ((d.serialRead n).1).line = d.line := by
  unfold serialRead; split <;> rfl
@[simp] theorem serialRead_lbFill (d : Dev S R X) (n : Nat) : ((d.serialRead n).1).lbFill = d.lbFill := by
  unfold serialRead; split <;> rfl
@[simp] theorem serialRead_snd (d : Dev S R X) (n : Nat) : ((d.serialRead n).1).snd = d.snd := by
  unfold serialRead; split <;> rfl
@[simp] theorem serialRead_rep (d : Dev S R X) (n : Nat) : ((d.serialRead n).1).rep = d.rep := by
  unfold serialRead; split <;> rfl
@[simp] theorem serialRead_bytesToWrite (d : Dev S R X) (n : Nat) : ((d.serialRead n).1).bytesToWrite = d.bytesToWrite := by
  unfold serialRead; split <;> rfl
@[simp] theorem serialRead_bytesToReceive (d : Dev S R X) (n : Nat) : ((d.serialRead n).1).bytesToReceive = d.bytesToReceive := by
  unfold serialRead; split <;> rfl
@[simp] theorem serialRead_bytesToRead (d : Dev S R X) (n : Nat) : ((d.serialRead n).1).bytesToRead = d.bytesToRead := by
  unfold serialRead; split <;> rfl
@[simp] theorem serialRead_rssi (d : Dev S R X) (n : Nat) : ((d.serialRead n).1).rssi = d.rssi := by
  unfold serialRead; split <;> rfl
@[simp] theorem serialRead_delay (d : Dev S R X) (n : Nat) : ((d.serialRead n).1).delay = d.delay := by
  unfold serialRead; split <;> rfl
@[simp] theorem serialRead_ub (d : Dev S R X) (n : Nat) : ((d.serialRead n).1).ub = d.ub := by
  unfold serialRead; split <;> rfl
@[simp] theorem serialRead_ext (d : Dev S R X) (n : Nat) : ((d.serialRead n).1).ext = d.ext := by
  unfold serialRead; split <;> rfl

end serialRead

/-! Changed members. -/

@[simp] theorem handleDisconnect_disconnectPending (d : Dev S R X) (n : S) :
    (d.handleDisconnect n).disconnectPending = false := by
  unfold handleDisconnect; split <;> simp_all

theorem handleDisconnect_snd (d : Dev S R X) (n : S) :
    (d.handleDisconnect n).snd = if d.disconnectPending then n else d.snd := by
  unfold handleDisconnect; split <;> rfl

@[simp] theorem handleConnect_connectPending (d : Dev S R X) (n : S) :
    (d.handleConnect n).connectPending = false := by
  unfold handleConnect; split <;> simp_all

theorem handleConnect_snd (d : Dev S R X) (n : S) :
    (d.handleConnect n).snd = if d.connectPending then n else d.snd := by
  unfold handleConnect; split <;> rfl

end Verif.Dev
