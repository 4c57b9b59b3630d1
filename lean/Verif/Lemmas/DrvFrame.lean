import Verif.Lemmas.DevFrame
import Verif.Model.Ops

/-! Which members the functions of the drivers leave alone. -/

namespace Verif

variable {S R : Type}

namespace SimDev

section fillLineBuffer

@[simp] theorem fillLineBuffer_isOpen (d : SimDev S R) : (d.fillLineBuffer.1).isOpen = d.isOpen := by
  simp [fillLineBuffer]
@[simp] theorem fillLineBuffer_rbuf (d : SimDev S R) : (d.fillLineBuffer.1).rbuf = d.rbuf := by
  simp [fillLineBuffer]
@[simp] theorem fillLineBuffer_wbuf (d : SimDev S R) : (d.fillLineBuffer.1).wbuf = d.wbuf := by
  simp [fillLineBuffer]
@[simp] theorem fillLineBuffer_typ (d : SimDev S R) : (d.fillLineBuffer.1).typ = d.typ := by
  simp [fillLineBuffer]
@[simp] theorem fillLineBuffer_host (d : SimDev S R) : (d.fillLineBuffer.1).host = d.host := by
  simp [fillLineBuffer]
@[simp] theorem fillLineBuffer_port (d : SimDev S R) : (d.fillLineBuffer.1).port = d.port := by
  simp [fillLineBuffer]
@[simp] theorem fillLineBuffer_connectPending (d : SimDev S R) : (d.fillLineBuffer.1).connectPending = d.connectPending := by
  simp [fillLineBuffer]
@[simp] theorem fillLineBuffer_resetPending (d : SimDev S R) : (d.fillLineBuffer.1).resetPending = d.resetPending := by
  simp [fillLineBuffer]
@[simp] theorem fillLineBuffer_dataPending (d : SimDev S R) : (d.fillLineBuffer.1).dataPending = d.dataPending := by
  simp [fillLineBuffer]
@[simp] theorem fillLineBuffer_disconnectPending (d : SimDev S R) : (d.fillLineBuffer.1).disconnectPending = d.disconnectPending := by
  simp [fillLineBuffer]
@[simp] theorem fillLineBuffer_ipConnected (d : SimDev S R) : (d.fillLineBuffer.1).ipConnected = d.ipConnected := by
  simp [fillLineBuffer]
@[simp] theorem fillLineBuffer_lineRead (d : SimDev S R) : (d.fillLineBuffer.1).lineRead = d.lineRead := by
  simp [fillLineBuffer]
@[simp] theorem fillLineBuffer_serialLocked (d : SimDev S R) : (d.fillLineBuffer.1).serialLocked = d.serialLocked := by
  simp [fillLineBuffer]
@[simp] theorem fillLineBuffer_cs (d : SimDev S R) : (d.fillLineBuffer.1).cs = d.cs := by
  simp [fillLineBuffer]
@[simp] theorem fillLineBuffer_wait (d : SimDev S R) : (d.fillLineBuffer.1).wait = d.wait := by
  simp [fillLineBuffer]
@[simp] theorem fillLineBuffer_snd (d : SimDev S R) : (d.fillLineBuffer.1).snd = d.snd := by
  simp [fillLineBuffer]
@[simp] theorem fillLineBuffer_bytesToWrite (d : SimDev S R) : (d.fillLineBuffer.1).bytesToWrite = d.bytesToWrite := by
  simp [fillLineBuffer]
@[simp] theorem fillLineBuffer_bytesToReceive (d : SimDev S R) : (d.fillLineBuffer.1).bytesToReceive = d.bytesToReceive := by
  simp [fillLineBuffer]
@[simp] theorem fillLineBuffer_bytesToRead (d : SimDev S R) : (d.fillLineBuffer.1).bytesToRead = d.bytesToRead := by
  simp [fillLineBuffer]
@[simp] theorem fillLineBuffer_rssi (d : SimDev S R) : (d.fillLineBuffer.1).rssi = d.rssi := by
  simp [fillLineBuffer]
@[simp] theorem fillLineBuffer_delay (d : SimDev S R) : (d.fillLineBuffer.1).delay = d.delay := by
  simp [fillLineBuffer]
@[simp] theorem fillLineBuffer_ub (d : SimDev S R) : (d.fillLineBuffer.1).ub = d.ub := by
  simp [fillLineBuffer]
@[simp] theorem fillLineBuffer_ext (d : SimDev S R) : (d.fillLineBuffer.1).ext = d.ext := by
  simp [fillLineBuffer]

end fillLineBuffer

section connect

@[simp] theorem connect_ser (d : SimDev S R) : ((connect d).1).ser = d.ser := by
  unfold connect; split; rfl; simp
@[simp] theorem connect_isOpen (d : SimDev S R) : ((connect d).1).isOpen = d.isOpen := by
  unfold connect; split; rfl; simp
@[simp] theorem connect_rbuf (d : SimDev S R) : ((connect d).1).rbuf = d.rbuf := by
  unfold connect; split; rfl; simp
@[simp] theorem connect_wbuf (d : SimDev S R) : ((connect d).1).wbuf = d.wbuf := by
  unfold connect; split; rfl; simp
@[simp] theorem connect_typ (d : SimDev S R) : ((connect d).1).typ = d.typ := by
  unfold connect; split; rfl; simp
@[simp] theorem connect_host (d : SimDev S R) : ((connect d).1).host = d.host := by
  unfold connect; split; rfl; simp
@[simp] theorem connect_port (d : SimDev S R) : ((connect d).1).port = d.port := by
  unfold connect; split; rfl; simp
@[simp] theorem connect_resetPending (d : SimDev S R) : ((connect d).1).resetPending = d.resetPending := by
  unfold connect; split; rfl; simp
@[simp] theorem connect_dataPending (d : SimDev S R) : ((connect d).1).dataPending = d.dataPending := by
  unfold connect; split; rfl; simp
@[simp] theorem connect_disconnectPending (d : SimDev S R) : ((connect d).1).disconnectPending = d.disconnectPending := by
  unfold connect; split; rfl; simp
@[simp] theorem connect_ipConnected (d : SimDev S R) : ((connect d).1).ipConnected = d.ipConnected := by
  unfold connect; split; rfl; simp
@[simp] theorem connect_lineRead (d : SimDev S R) : ((connect d).1).lineRead = d.lineRead := by
  unfold connect; split; rfl; simp
@[simp] theorem connect_serialLocked (d : SimDev S R) : ((connect d).1).serialLocked = d.serialLocked := by
  unfold connect; split; rfl; simp
@[simp] theorem connect_cs (d : SimDev S R) : ((connect d).1).cs = d.cs := by
  unfold connect; split; rfl; simp
@[simp] theorem connect_wait (d : SimDev S R) : ((connect d).1).wait = d.wait := by
  unfold connect; split; rfl; simp
@[simp] theorem connect_line (d : SimDev S R) : ((connect d).1).line = d.line := by
  unfold connect; split; rfl; simp
@[simp] theorem connect_lbFill (d : SimDev S R) : ((connect d).1).lbFill = d.lbFill := by
  unfold connect; split; rfl; simp
@[simp] theorem connect_snd (d : SimDev S R) : ((connect d).1).snd = d.snd := by
  unfold connect; split; rfl; simp
@[simp] theorem connect_rep (d : SimDev S R) : ((connect d).1).rep = d.rep := by
  unfold connect; split; rfl; simp
@[simp] theorem connect_bytesToWrite (d : SimDev S R) : ((connect d).1).bytesToWrite = d.bytesToWrite := by
  unfold connect; split; rfl; simp
@[simp] theorem connect_bytesToReceive (d : SimDev S R) : ((connect d).1).bytesToReceive = d.bytesToReceive := by
  unfold connect; split; rfl; simp
@[simp] theorem connect_bytesToRead (d : SimDev S R) : ((connect d).1).bytesToRead = d.bytesToRead := by
  unfold connect; split; rfl; simp
@[simp] theorem connect_rssi (d : SimDev S R) : ((connect d).1).rssi = d.rssi := by
  unfold connect; split; rfl; simp
@[simp] theorem connect_delay (d : SimDev S R) : ((connect d).1).delay = d.delay := by
  unfold connect; split; rfl; simp
@[simp] theorem connect_ub (d : SimDev S R) : ((connect d).1).ub = d.ub := by
  unfold connect; split; rfl; simp
@[simp] theorem connect_trace (d : SimDev S R) : ((connect d).1).trace = d.trace := by
  unfold connect; split; rfl; simp
@[simp] theorem connect_ext (d : SimDev S R) : ((connect d).1).ext = d.ext := by
  unfold connect; split; rfl; simp

end connect

section sendDnsQuery

@[simp] theorem sendDnsQuery_isOpen (d : SimDev S R) : (d.sendDnsQuery.1).isOpen = d.isOpen := by
  unfold sendDnsQuery; (try dsimp only); (repeat' split) <;> rfl
@[simp] theorem sendDnsQuery_rbuf (d : SimDev S R) : (d.sendDnsQuery.1).rbuf = d.rbuf := by
  unfold sendDnsQuery; (try dsimp only); (repeat' split) <;> rfl
@[simp] theorem sendDnsQuery_wbuf (d : SimDev S R) : (d.sendDnsQuery.1).wbuf = d.wbuf := by
  unfold sendDnsQuery; (try dsimp only); (repeat' split) <;> rfl
@[simp] theorem sendDnsQuery_typ (d : SimDev S R) : (d.sendDnsQuery.1).typ = d.typ := by
  unfold sendDnsQuery; (try dsimp only); (repeat' split) <;> rfl
@[simp] theorem sendDnsQuery_host (d : SimDev S R) : (d.sendDnsQuery.1).host = d.host := by
  unfold sendDnsQuery; (try dsimp only); (repeat' split) <;> rfl
@[simp] theorem sendDnsQuery_port (d : SimDev S R) : (d.sendDnsQuery.1).port = d.port := by
  unfold sendDnsQuery; (try dsimp only); (repeat' split) <;> rfl
@[simp] theorem sendDnsQuery_connectPending (d : SimDev S R) : (d.sendDnsQuery.1).connectPending = d.connectPending := by
  unfold sendDnsQuery; (try dsimp only); (repeat' split) <;> rfl
@[simp] theorem sendDnsQuery_resetPending (d : SimDev S R) : (d.sendDnsQuery.1).resetPending = d.resetPending := by
  unfold sendDnsQuery; (try dsimp only); (repeat' split) <;> rfl
@[simp] theorem sendDnsQuery_dataPending (d : SimDev S R) : (d.sendDnsQuery.1).dataPending = d.dataPending := by
  unfold sendDnsQuery; (try dsimp only); (repeat' split) <;> rfl
@[simp] theorem sendDnsQuery_disconnectPending (d : SimDev S R) : (d.sendDnsQuery.1).disconnectPending = d.disconnectPending := by
  unfold sendDnsQuery; (try dsimp only); (repeat' split) <;> rfl
@[simp] theorem sendDnsQuery_ipConnected (d : SimDev S R) : (d.sendDnsQuery.1).ipConnected = d.ipConnected := by
  unfold sendDnsQuery; (try dsimp only); (repeat' split) <;> rfl
@[simp] theorem sendDnsQuery_lineRead (d : SimDev S R) : (d.sendDnsQuery.1).lineRead = d.lineRead := by
  unfold sendDnsQuery; (try dsimp only); (repeat' split) <;> rfl
@[simp] theorem sendDnsQuery_serialLocked (d : SimDev S R) : (d.sendDnsQuery.1).serialLocked = d.serialLocked := by
  unfold sendDnsQuery; (try dsimp only); (repeat' split) <;> rfl
@[simp] theorem sendDnsQuery_cs (d : SimDev S R) : (d.sendDnsQuery.1).cs = d.cs := by
  unfold sendDnsQuery; (try dsimp only); (repeat' split) <;> rfl
@[simp] theorem sendDnsQuery_wait (d : SimDev S R) : (d.sendDnsQuery.1).wait = d.wait := by
  unfold sendDnsQuery; (try dsimp only); (repeat' split) <;> rfl
@[simp] theorem sendDnsQuery_line (d : SimDev S R) : (d.sendDnsQuery.1).line = d.line := by
  unfold sendDnsQuery; (try dsimp only); (repeat' split) <;> rfl
@[simp] theorem sendDnsQuery_lbFill (d : SimDev S R) : (d.sendDnsQuery.1).lbFill = d.lbFill := by
  unfold sendDnsQuery; (try dsimp only); (repeat' split) <;> rfl
@[simp] theorem sendDnsQuery_snd (d : SimDev S R) : (d.sendDnsQuery.1).snd = d.snd := by
  unfold sendDnsQuery; (try dsimp only); (repeat' split) <;> rfl
@[simp] theorem sendDnsQuery_rep (d : SimDev S R) : (d.sendDnsQuery.1).rep = d.rep := by
  unfold sendDnsQuery; (try dsimp only); (repeat' split) <;> rfl
@[simp] theorem sendDnsQuery_bytesToWrite (d : SimDev S R) : (d.sendDnsQuery.1).bytesToWrite = d.bytesToWrite := by
  unfold sendDnsQuery; (try dsimp only); (repeat' split) <;> rfl
@[simp] theorem sendDnsQuery_bytesToReceive (d : SimDev S R) : (d.sendDnsQuery.1).bytesToReceive = d.bytesToReceive := by
  unfold sendDnsQuery; (try dsimp only); (repeat' split) <;> rfl
@[simp] theorem sendDnsQuery_bytesToRead (d : SimDev S R) : (d.sendDnsQuery.1).bytesToRead = d.bytesToRead := by
  unfold sendDnsQuery; (try dsimp only); (repeat' split) <;> rfl
@[simp] theorem sendDnsQuery_rssi (d : SimDev S R) : (d.sendDnsQuery.1).rssi = d.rssi := by
  unfold sendDnsQuery; (try dsimp only); (repeat' split) <;> rfl
@[simp] theorem sendDnsQuery_delay (d : SimDev S R) : (d.sendDnsQuery.1).delay = d.delay := by
  unfold sendDnsQuery; (try dsimp only); (repeat' split) <;> rfl
@[simp] theorem sendDnsQuery_ext (d : SimDev S R) : (d.sendDnsQuery.1).ext = d.ext := by
  unfold sendDnsQuery; (try dsimp only); (repeat' split) <;> rfl

end sendDnsQuery

section sendCiprxget2

@[simp] theorem sendCiprxget2_isOpen (d : SimDev S R) : (d.sendCiprxget2.1).isOpen = d.isOpen := by
  unfold sendCiprxget2; (try dsimp only); (repeat' split) <;> rfl
@[simp] theorem sendCiprxget2_rbuf (d : SimDev S R) : (d.sendCiprxget2.1).rbuf = d.rbuf := by
  unfold sendCiprxget2; (try dsimp only); (repeat' split) <;> rfl
@[simp] theorem sendCiprxget2_wbuf (d : SimDev S R) : (d.sendCiprxget2.1).wbuf = d.wbuf := by
  unfold sendCiprxget2; (try dsimp only); (repeat' split) <;> rfl
@[simp] theorem sendCiprxget2_typ (d : SimDev S R) : (d.sendCiprxget2.1).typ = d.typ := by
  unfold sendCiprxget2; (try dsimp only); (repeat' split) <;> rfl
@[simp] theorem sendCiprxget2_host (d : SimDev S R) : (d.sendCiprxget2.1).host = d.host := by
  unfold sendCiprxget2; (try dsimp only); (repeat' split) <;> rfl
@[simp] theorem sendCiprxget2_port (d : SimDev S R) : (d.sendCiprxget2.1).port = d.port := by
  unfold sendCiprxget2; (try dsimp only); (repeat' split) <;> rfl
@[simp] theorem sendCiprxget2_connectPending (d : SimDev S R) : (d.sendCiprxget2.1).connectPending = d.connectPending := by
  unfold sendCiprxget2; (try dsimp only); (repeat' split) <;> rfl
@[simp] theorem sendCiprxget2_resetPending (d : SimDev S R) : (d.sendCiprxget2.1).resetPending = d.resetPending := by
  unfold sendCiprxget2; (try dsimp only); (repeat' split) <;> rfl
@[simp] theorem sendCiprxget2_dataPending (d : SimDev S R) : (d.sendCiprxget2.1).dataPending = d.dataPending := by
  unfold sendCiprxget2; (try dsimp only); (repeat' split) <;> rfl
@[simp] theorem sendCiprxget2_disconnectPending (d : SimDev S R) : (d.sendCiprxget2.1).disconnectPending = d.disconnectPending := by
  unfold sendCiprxget2; (try dsimp only); (repeat' split) <;> rfl
@[simp] theorem sendCiprxget2_ipConnected (d : SimDev S R) : (d.sendCiprxget2.1).ipConnected = d.ipConnected := by
  unfold sendCiprxget2; (try dsimp only); (repeat' split) <;> rfl
@[simp] theorem sendCiprxget2_lineRead (d : SimDev S R) : (d.sendCiprxget2.1).lineRead = d.lineRead := by
  unfold sendCiprxget2; (try dsimp only); (repeat' split) <;> rfl
@[simp] theorem sendCiprxget2_serialLocked (d : SimDev S R) : (d.sendCiprxget2.1).serialLocked = d.serialLocked := by
  unfold sendCiprxget2; (try dsimp only); (repeat' split) <;> rfl
@[simp] theorem sendCiprxget2_cs (d : SimDev S R) : (d.sendCiprxget2.1).cs = d.cs := by
  unfold sendCiprxget2; (try dsimp only); (repeat' split) <;> rfl
@[simp] theorem sendCiprxget2_wait (d : SimDev S R) : (d.sendCiprxget2.1).wait = d.wait := by
  unfold sendCiprxget2; (try dsimp only); (repeat' split) <;> rfl
@[simp] theorem sendCiprxget2_line (d : SimDev S R) : (d.sendCiprxget2.1).line = d.line := by
  unfold sendCiprxget2; (try dsimp only); (repeat' split) <;> rfl
@[simp] theorem sendCiprxget2_lbFill (d : SimDev S R) : (d.sendCiprxget2.1).lbFill = d.lbFill := by
  unfold sendCiprxget2; (try dsimp only); (repeat' split) <;> rfl
@[simp] theorem sendCiprxget2_snd (d : SimDev S R) : (d.sendCiprxget2.1).snd = d.snd := by
  unfold sendCiprxget2; (try dsimp only); (repeat' split) <;> rfl
@[simp] theorem sendCiprxget2_rep (d : SimDev S R) : (d.sendCiprxget2.1).rep = d.rep := by
  unfold sendCiprxget2; (try dsimp only); (repeat' split) <;> rfl
@[simp] theorem sendCiprxget2_bytesToWrite (d : SimDev S R) : (d.sendCiprxget2.1).bytesToWrite = d.bytesToWrite := by
  unfold sendCiprxget2; (try dsimp only); (repeat' split) <;> rfl
@[simp] theorem sendCiprxget2_bytesToReceive (d : SimDev S R) : (d.sendCiprxget2.1).bytesToReceive = d.bytesToReceive := by
  unfold sendCiprxget2; (try dsimp only); (repeat' split) <;> rfl
@[simp] theorem sendCiprxget2_bytesToRead (d : SimDev S R) : (d.sendCiprxget2.1).bytesToRead = d.bytesToRead := by
  unfold sendCiprxget2; (try dsimp only); (repeat' split) <;> rfl
@[simp] theorem sendCiprxget2_rssi (d : SimDev S R) : (d.sendCiprxget2.1).rssi = d.rssi := by
  unfold sendCiprxget2; (try dsimp only); (repeat' split) <;> rfl
@[simp] theorem sendCiprxget2_delay (d : SimDev S R) : (d.sendCiprxget2.1).delay = d.delay := by
  unfold sendCiprxget2; (try dsimp only); (repeat' split) <;> rfl
@[simp] theorem sendCiprxget2_ub (d : SimDev S R) : (d.sendCiprxget2.1).ub = d.ub := by
  unfold sendCiprxget2; (try dsimp only); (repeat' split) <;> rfl
@[simp] theorem sendCiprxget2_ext (d : SimDev S R) : (d.sendCiprxget2.1).ext = d.ext := by
  unfold sendCiprxget2; (try dsimp only); (repeat' split) <;> rfl

end sendCiprxget2

section sendIDRequest

@[simp] theorem sendIDRequest_isOpen (d : SimDev S R) (c : List Byte) : ((d.sendIDRequest c).1).isOpen = d.isOpen := by
  unfold sendIDRequest; (try dsimp only); (repeat' split) <;> rfl
@[simp] theorem sendIDRequest_rbuf (d : SimDev S R) (c : List Byte) : ((d.sendIDRequest c).1).rbuf = d.rbuf := by
  unfold sendIDRequest; (try dsimp only); (repeat' split) <;> rfl
@[simp] theorem sendIDRequest_wbuf (d : SimDev S R) (c : List Byte) : ((d.sendIDRequest c).1).wbuf = d.wbuf := by
  unfold sendIDRequest; (try dsimp only); (repeat' split) <;> rfl
@[simp] theorem sendIDRequest_typ (d : SimDev S R) (c : List Byte) : ((d.sendIDRequest c).1).typ = d.typ := by
  unfold sendIDRequest; (try dsimp only); (repeat' split) <;> rfl
@[simp] theorem sendIDRequest_host (d : SimDev S R) (c : List Byte) : ((d.sendIDRequest c).1).host = d.host := by
  unfold sendIDRequest; (try dsimp only); (repeat' split) <;> rfl
@[simp] theorem sendIDRequest_port (d : SimDev S R) (c : List Byte) : ((d.sendIDRequest c).1).port = d.port := by
  unfold sendIDRequest; (try dsimp only); (repeat' split) <;> rfl
@[simp] theorem sendIDRequest_connectPending (d : SimDev S R) (c : List Byte) : ((d.sendIDRequest c).1).connectPending = d.connectPending := by
  unfold sendIDRequest; (try dsimp only); (repeat' split) <;> rfl
@[simp] theorem sendIDRequest_resetPending (d : SimDev S R) (c : List Byte) : ((d.sendIDRequest c).1).resetPending = d.resetPending := by
  unfold sendIDRequest; (try dsimp only); (repeat' split) <;> rfl
@[simp] theorem sendIDRequest_dataPending (d : SimDev S R) (c : List Byte) : ((d.sendIDRequest c).1).dataPending = d.dataPending := by
  unfold sendIDRequest; (try dsimp only); (repeat' split) <;> rfl
@[simp] theorem sendIDRequest_disconnectPending (d : SimDev S R) (c : List Byte) : ((d.sendIDRequest c).1).disconnectPending = d.disconnectPending := by
  unfold sendIDRequest; (try dsimp only); (repeat' split) <;> rfl
@[simp] theorem sendIDRequest_ipConnected (d : SimDev S R) (c : List Byte) : ((d.sendIDRequest c).1).ipConnected = d.ipConnected := by
  unfold sendIDRequest; (try dsimp only); (repeat' split) <;> rfl
@[simp] theorem sendIDRequest_lineRead (d : SimDev S R) (c : List Byte) : ((d.sendIDRequest c).1).lineRead = d.lineRead := by
  unfold sendIDRequest; (try dsimp only); (repeat' split) <;> rfl
@[simp] theorem sendIDRequest_serialLocked (d : SimDev S R) (c : List Byte) : ((d.sendIDRequest c).1).serialLocked = d.serialLocked := by
  unfold sendIDRequest; (try dsimp only); (repeat' split) <;> rfl
@[simp] theorem sendIDRequest_cs (d : SimDev S R) (c : List Byte) : ((d.sendIDRequest c).1).cs = d.cs := by
  unfold sendIDRequest; (try dsimp only); (repeat' split) <;> rfl
@[simp] theorem sendIDRequest_wait (d : SimDev S R) (c : List Byte) : ((d.sendIDRequest c).1).wait = d.wait := by
  unfold sendIDRequest; (try dsimp only); (repeat' split) <;> rfl
@[simp] theorem sendIDRequest_line (d : SimDev S R) (c : List Byte) : ((d.sendIDRequest c).1).line = d.line := by
  unfold sendIDRequest; (try dsimp only); (repeat' split) <;> rfl
@[simp] theorem sendIDRequest_lbFill (d : SimDev S R) (c : List Byte) : ((d.sendIDRequest c).1).lbFill = d.lbFill := by
  unfold sendIDRequest; (try dsimp only); (repeat' split) <;> rfl
@[simp] theorem sendIDRequest_snd (d : SimDev S R) (c : List Byte) : ((d.sendIDRequest c).1).snd = d.snd := by
  unfold sendIDRequest; (try dsimp only); (repeat' split) <;> rfl
@[simp] theorem sendIDRequest_rep (d : SimDev S R) (c : List Byte) : ((d.sendIDRequest c).1).rep = d.rep := by
  unfold sendIDRequest; (try dsimp only); (repeat' split) <;> rfl
@[simp] theorem sendIDRequest_bytesToWrite (d : SimDev S R) (c : List Byte) : ((d.sendIDRequest c).1).bytesToWrite = d.bytesToWrite := by
  unfold sendIDRequest; (try dsimp only); (repeat' split) <;> rfl
@[simp] theorem sendIDRequest_bytesToReceive (d : SimDev S R) (c : List Byte) : ((d.sendIDRequest c).1).bytesToReceive = d.bytesToReceive := by
  unfold sendIDRequest; (try dsimp only); (repeat' split) <;> rfl
@[simp] theorem sendIDRequest_bytesToRead (d : SimDev S R) (c : List Byte) : ((d.sendIDRequest c).1).bytesToRead = d.bytesToRead := by
  unfold sendIDRequest; (try dsimp only); (repeat' split) <;> rfl
@[simp] theorem sendIDRequest_rssi (d : SimDev S R) (c : List Byte) : ((d.sendIDRequest c).1).rssi = d.rssi := by
  unfold sendIDRequest; (try dsimp only); (repeat' split) <;> rfl
@[simp] theorem sendIDRequest_delay (d : SimDev S R) (c : List Byte) : ((d.sendIDRequest c).1).delay = d.delay := by
  unfold sendIDRequest; (try dsimp only); (repeat' split) <;> rfl
@[simp] theorem sendIDRequest_ub (d : SimDev S R) (c : List Byte) : ((d.sendIDRequest c).1).ub = d.ub := by
  unfold sendIDRequest; (try dsimp only); (repeat' split) <;> rfl

end sendIDRequest

section parseDnsReply

@[simp] theorem parseDnsReply_ser (d : SimDev S R) : (d.parseDnsReply.1).ser = d.ser := by
  unfold parseDnsReply; (try dsimp only); (repeat' split) <;> rfl
@[simp] theorem parseDnsReply_isOpen (d : SimDev S R) : (d.parseDnsReply.1).isOpen = d.isOpen := by
  unfold parseDnsReply; (try dsimp only); (repeat' split) <;> rfl
@[simp] theorem parseDnsReply_rbuf (d : SimDev S R) : (d.parseDnsReply.1).rbuf = d.rbuf := by
  unfold parseDnsReply; (try dsimp only); (repeat' split) <;> rfl
@[simp] theorem parseDnsReply_wbuf (d : SimDev S R) : (d.parseDnsReply.1).wbuf = d.wbuf := by
  unfold parseDnsReply; (try dsimp only); (repeat' split) <;> rfl
@[simp] theorem parseDnsReply_typ (d : SimDev S R) : (d.parseDnsReply.1).typ = d.typ := by
  unfold parseDnsReply; (try dsimp only); (repeat' split) <;> rfl
@[simp] theorem parseDnsReply_host (d : SimDev S R) : (d.parseDnsReply.1).host = d.host := by
  unfold parseDnsReply; (try dsimp only); (repeat' split) <;> rfl
@[simp] theorem parseDnsReply_port (d : SimDev S R) : (d.parseDnsReply.1).port = d.port := by
  unfold parseDnsReply; (try dsimp only); (repeat' split) <;> rfl
@[simp] theorem parseDnsReply_connectPending (d : SimDev S R) : (d.parseDnsReply.1).connectPending = d.connectPending := by
  unfold parseDnsReply; (try dsimp only); (repeat' split) <;> rfl
@[simp] theorem parseDnsReply_dataPending (d : SimDev S R) : (d.parseDnsReply.1).dataPending = d.dataPending := by
  unfold parseDnsReply; (try dsimp only); (repeat' split) <;> rfl
@[simp] theorem parseDnsReply_disconnectPending (d : SimDev S R) : (d.parseDnsReply.1).disconnectPending = d.disconnectPending := by
  unfold parseDnsReply; (try dsimp only); (repeat' split) <;> rfl
@[simp] theorem parseDnsReply_ipConnected (d : SimDev S R) : (d.parseDnsReply.1).ipConnected = d.ipConnected := by
  unfold parseDnsReply; (try dsimp only); (repeat' split) <;> rfl
@[simp] theorem parseDnsReply_lineRead (d : SimDev S R) : (d.parseDnsReply.1).lineRead = d.lineRead := by
  unfold parseDnsReply; (try dsimp only); (repeat' split) <;> rfl
@[simp] theorem parseDnsReply_serialLocked (d : SimDev S R) : (d.parseDnsReply.1).serialLocked = d.serialLocked := by
  unfold parseDnsReply; (try dsimp only); (repeat' split) <;> rfl
@[simp] theorem parseDnsReply_wait (d : SimDev S R) : (d.parseDnsReply.1).wait = d.wait := by
  unfold parseDnsReply; (try dsimp only); (repeat' split) <;> rfl
@[simp] theorem parseDnsReply_lbFill (d : SimDev S R) : (d.parseDnsReply.1).lbFill = d.lbFill := by
  unfold parseDnsReply; (try dsimp only); (repeat' split) <;> rfl
@[simp] theorem parseDnsReply_snd (d : SimDev S R) : (d.parseDnsReply.1).snd = d.snd := by
  unfold parseDnsReply; (try dsimp only); (repeat' split) <;> rfl
@[simp] theorem parseDnsReply_rep (d : SimDev S R) : (d.parseDnsReply.1).rep = d.rep := by
  unfold parseDnsReply; (try dsimp only); (repeat' split) <;> rfl
@[simp] theorem parseDnsReply_bytesToWrite (d : SimDev S R) : (d.parseDnsReply.1).bytesToWrite = d.bytesToWrite := by
  unfold parseDnsReply; (try dsimp only); (repeat' split) <;> rfl
@[simp] theorem parseDnsReply_bytesToReceive (d : SimDev S R) : (d.parseDnsReply.1).bytesToReceive = d.bytesToReceive := by
  unfold parseDnsReply; (try dsimp only); (repeat' split) <;> rfl
@[simp] theorem parseDnsReply_bytesToRead (d : SimDev S R) : (d.parseDnsReply.1).bytesToRead = d.bytesToRead := by
  unfold parseDnsReply; (try dsimp only); (repeat' split) <;> rfl
@[simp] theorem parseDnsReply_rssi (d : SimDev S R) : (d.parseDnsReply.1).rssi = d.rssi := by
  unfold parseDnsReply; (try dsimp only); (repeat' split) <;> rfl
@[simp] theorem parseDnsReply_delay (d : SimDev S R) : (d.parseDnsReply.1).delay = d.delay := by
  unfold parseDnsReply; (try dsimp only); (repeat' split) <;> rfl
@[simp] theorem parseDnsReply_trace (d : SimDev S R) : (d.parseDnsReply.1).trace = d.trace := by
  unfold parseDnsReply; (try dsimp only); (repeat' split) <;> rfl

end parseDnsReply

section parseCiprxget4

@[simp] theorem parseCiprxget4_ser (p : Platform) (d : SimDev S R) : ((parseCiprxget4 p d).1).ser = d.ser := by
  unfold parseCiprxget4; (try dsimp only); split <;> rfl
@[simp] theorem parseCiprxget4_isOpen (p : Platform) (d : SimDev S R) : ((parseCiprxget4 p d).1).isOpen = d.isOpen := by
  unfold parseCiprxget4; (try dsimp only); split <;> rfl
@[simp] theorem parseCiprxget4_rbuf (p : Platform) (d : SimDev S R) : ((parseCiprxget4 p d).1).rbuf = d.rbuf := by
  unfold parseCiprxget4; (try dsimp only); split <;> rfl
@[simp] theorem parseCiprxget4_wbuf (p : Platform) (d : SimDev S R) : ((parseCiprxget4 p d).1).wbuf = d.wbuf := by
  unfold parseCiprxget4; (try dsimp only); split <;> rfl
@[simp] theorem parseCiprxget4_typ (p : Platform) (d : SimDev S R) : ((parseCiprxget4 p d).1).typ = d.typ := by
  unfold parseCiprxget4; (try dsimp only); split <;> rfl
@[simp] theorem parseCiprxget4_host (p : Platform) (d : SimDev S R) : ((parseCiprxget4 p d).1).host = d.host := by
  unfold parseCiprxget4; (try dsimp only); split <;> rfl
@[simp] theorem parseCiprxget4_port (p : Platform) (d : SimDev S R) : ((parseCiprxget4 p d).1).port = d.port := by
  unfold parseCiprxget4; (try dsimp only); split <;> rfl
@[simp] theorem parseCiprxget4_connectPending (p : Platform) (d : SimDev S R) : ((parseCiprxget4 p d).1).connectPending = d.connectPending := by
  unfold parseCiprxget4; (try dsimp only); split <;> rfl
@[simp] theorem parseCiprxget4_resetPending (p : Platform) (d : SimDev S R) : ((parseCiprxget4 p d).1).resetPending = d.resetPending := by
  unfold parseCiprxget4; (try dsimp only); split <;> rfl
@[simp] theorem parseCiprxget4_dataPending (p : Platform) (d : SimDev S R) : ((parseCiprxget4 p d).1).dataPending = d.dataPending := by
  unfold parseCiprxget4; (try dsimp only); split <;> rfl
@[simp] theorem parseCiprxget4_disconnectPending (p : Platform) (d : SimDev S R) : ((parseCiprxget4 p d).1).disconnectPending = d.disconnectPending := by
  unfold parseCiprxget4; (try dsimp only); split <;> rfl
@[simp] theorem parseCiprxget4_ipConnected (p : Platform) (d : SimDev S R) : ((parseCiprxget4 p d).1).ipConnected = d.ipConnected := by
  unfold parseCiprxget4; (try dsimp only); split <;> rfl
@[simp] theorem parseCiprxget4_lineRead (p : Platform) (d : SimDev S R) : ((parseCiprxget4 p d).1).lineRead = d.lineRead := by
  unfold parseCiprxget4; (try dsimp only); split <;> rfl
@[simp] theorem parseCiprxget4_serialLocked (p : Platform) (d : SimDev S R) : ((parseCiprxget4 p d).1).serialLocked = d.serialLocked := by
  unfold parseCiprxget4; (try dsimp only); split <;> rfl
@[simp] theorem parseCiprxget4_cs (p : Platform) (d : SimDev S R) : ((parseCiprxget4 p d).1).cs = d.cs := by
  unfold parseCiprxget4; (try dsimp only); split <;> rfl
@[simp] theorem parseCiprxget4_wait (p : Platform) (d : SimDev S R) : ((parseCiprxget4 p d).1).wait = d.wait := by
  unfold parseCiprxget4; (try dsimp only); split <;> rfl
@[simp] theorem parseCiprxget4_line (p : Platform) (d : SimDev S R) : ((parseCiprxget4 p d).1).line = d.line := by
  unfold parseCiprxget4; (try dsimp only); split <;> rfl
@[simp] theorem parseCiprxget4_lbFill (p : Platform) (d : SimDev S R) : ((parseCiprxget4 p d).1).lbFill = d.lbFill := by
  unfold parseCiprxget4; (try dsimp only); split <;> rfl
@[simp] theorem parseCiprxget4_snd (p : Platform) (d : SimDev S R) : ((parseCiprxget4 p d).1).snd = d.snd := by
  unfold parseCiprxget4; (try dsimp only); split <;> rfl
@[simp] theorem parseCiprxget4_rep (p : Platform) (d : SimDev S R) : ((parseCiprxget4 p d).1).rep = d.rep := by
  unfold parseCiprxget4; (try dsimp only); split <;> rfl
@[simp] theorem parseCiprxget4_bytesToWrite (p : Platform) (d : SimDev S R) : ((parseCiprxget4 p d).1).bytesToWrite = d.bytesToWrite := by
  unfold parseCiprxget4; (try dsimp only); split <;> rfl
@[simp] theorem parseCiprxget4_bytesToRead (p : Platform) (d : SimDev S R) : ((parseCiprxget4 p d).1).bytesToRead = d.bytesToRead := by
  unfold parseCiprxget4; (try dsimp only); split <;> rfl
@[simp] theorem parseCiprxget4_rssi (p : Platform) (d : SimDev S R) : ((parseCiprxget4 p d).1).rssi = d.rssi := by
  unfold parseCiprxget4; (try dsimp only); split <;> rfl
@[simp] theorem parseCiprxget4_delay (p : Platform) (d : SimDev S R) : ((parseCiprxget4 p d).1).delay = d.delay := by
  unfold parseCiprxget4; (try dsimp only); split <;> rfl
@[simp] theorem parseCiprxget4_ub (p : Platform) (d : SimDev S R) : ((parseCiprxget4 p d).1).ub = d.ub := by
  unfold parseCiprxget4; (try dsimp only); split <;> rfl
@[simp] theorem parseCiprxget4_trace (p : Platform) (d : SimDev S R) : ((parseCiprxget4 p d).1).trace = d.trace := by
  unfold parseCiprxget4; (try dsimp only); split <;> rfl
@[simp] theorem parseCiprxget4_ext (p : Platform) (d : SimDev S R) : ((parseCiprxget4 p d).1).ext = d.ext := by
  unfold parseCiprxget4; (try dsimp only); split <;> rfl

end parseCiprxget4

section parseCiprxget2

@[simp] theorem parseCiprxget2_ser (p : Platform) (d : SimDev S R) : ((parseCiprxget2 p d).1).ser = d.ser := by
  unfold parseCiprxget2; (try dsimp only); split <;> rfl
@[simp] theorem parseCiprxget2_isOpen (p : Platform) (d : SimDev S R) : ((parseCiprxget2 p d).1).isOpen = d.isOpen := by
  unfold parseCiprxget2; (try dsimp only); split <;> rfl
@[simp] theorem parseCiprxget2_rbuf (p : Platform) (d : SimDev S R) : ((parseCiprxget2 p d).1).rbuf = d.rbuf := by
  unfold parseCiprxget2; (try dsimp only); split <;> rfl
@[simp] theorem parseCiprxget2_wbuf (p : Platform) (d : SimDev S R) : ((parseCiprxget2 p d).1).wbuf = d.wbuf := by
  unfold parseCiprxget2; (try dsimp only); split <;> rfl
@[simp] theorem parseCiprxget2_typ (p : Platform) (d : SimDev S R) : ((parseCiprxget2 p d).1).typ = d.typ := by
  unfold parseCiprxget2; (try dsimp only); split <;> rfl
@[simp] theorem parseCiprxget2_host (p : Platform) (d : SimDev S R) : ((parseCiprxget2 p d).1).host = d.host := by
  unfold parseCiprxget2; (try dsimp only); split <;> rfl
@[simp] theorem parseCiprxget2_port (p : Platform) (d : SimDev S R) : ((parseCiprxget2 p d).1).port = d.port := by
  unfold parseCiprxget2; (try dsimp only); split <;> rfl
@[simp] theorem parseCiprxget2_connectPending (p : Platform) (d : SimDev S R) : ((parseCiprxget2 p d).1).connectPending = d.connectPending := by
  unfold parseCiprxget2; (try dsimp only); split <;> rfl
@[simp] theorem parseCiprxget2_resetPending (p : Platform) (d : SimDev S R) : ((parseCiprxget2 p d).1).resetPending = d.resetPending := by
  unfold parseCiprxget2; (try dsimp only); split <;> rfl
@[simp] theorem parseCiprxget2_dataPending (p : Platform) (d : SimDev S R) : ((parseCiprxget2 p d).1).dataPending = d.dataPending := by
  unfold parseCiprxget2; (try dsimp only); split <;> rfl
@[simp] theorem parseCiprxget2_disconnectPending (p : Platform) (d : SimDev S R) : ((parseCiprxget2 p d).1).disconnectPending = d.disconnectPending := by
  unfold parseCiprxget2; (try dsimp only); split <;> rfl
@[simp] theorem parseCiprxget2_ipConnected (p : Platform) (d : SimDev S R) : ((parseCiprxget2 p d).1).ipConnected = d.ipConnected := by
  unfold parseCiprxget2; (try dsimp only); split <;> rfl
@[simp] theorem parseCiprxget2_serialLocked (p : Platform) (d : SimDev S R) : ((parseCiprxget2 p d).1).serialLocked = d.serialLocked := by
  unfold parseCiprxget2; (try dsimp only); split <;> rfl
@[simp] theorem parseCiprxget2_cs (p : Platform) (d : SimDev S R) : ((parseCiprxget2 p d).1).cs = d.cs := by
  unfold parseCiprxget2; (try dsimp only); split <;> rfl
@[simp] theorem parseCiprxget2_wait (p : Platform) (d : SimDev S R) : ((parseCiprxget2 p d).1).wait = d.wait := by
  unfold parseCiprxget2; (try dsimp only); split <;> rfl
@[simp] theorem parseCiprxget2_line (p : Platform) (d : SimDev S R) : ((parseCiprxget2 p d).1).line = d.line := by
  unfold parseCiprxget2; (try dsimp only); split <;> rfl
@[simp] theorem parseCiprxget2_lbFill (p : Platform) (d : SimDev S R) : ((parseCiprxget2 p d).1).lbFill = d.lbFill := by
  unfold parseCiprxget2; (try dsimp only); split <;> rfl
@[simp] theorem parseCiprxget2_snd (p : Platform) (d : SimDev S R) : ((parseCiprxget2 p d).1).snd = d.snd := by
  unfold parseCiprxget2; (try dsimp only); split <;> rfl
@[simp] theorem parseCiprxget2_rep (p : Platform) (d : SimDev S R) : ((parseCiprxget2 p d).1).rep = d.rep := by
  unfold parseCiprxget2; (try dsimp only); split <;> rfl
@[simp] theorem parseCiprxget2_bytesToWrite (p : Platform) (d : SimDev S R) : ((parseCiprxget2 p d).1).bytesToWrite = d.bytesToWrite := by
  unfold parseCiprxget2; (try dsimp only); split <;> rfl
@[simp] theorem parseCiprxget2_rssi (p : Platform) (d : SimDev S R) : ((parseCiprxget2 p d).1).rssi = d.rssi := by
  unfold parseCiprxget2; (try dsimp only); split <;> rfl
@[simp] theorem parseCiprxget2_delay (p : Platform) (d : SimDev S R) : ((parseCiprxget2 p d).1).delay = d.delay := by
  unfold parseCiprxget2; (try dsimp only); split <;> rfl
@[simp] theorem parseCiprxget2_ub (p : Platform) (d : SimDev S R) : ((parseCiprxget2 p d).1).ub = d.ub := by
  unfold parseCiprxget2; (try dsimp only); split <;> rfl
@[simp] theorem parseCiprxget2_trace (p : Platform) (d : SimDev S R) : ((parseCiprxget2 p d).1).trace = d.trace := by
  unfold parseCiprxget2; (try dsimp only); split <;> rfl
@[simp] theorem parseCiprxget2_ext (p : Platform) (d : SimDev S R) : ((parseCiprxget2 p d).1).ext = d.ext := by
  unfold parseCiprxget2; (try dsimp only); split <;> rfl

end parseCiprxget2

section parseCsq

@[simp] theorem parseCsq_ser (p : Platform) (d : SimDev S R) : ((parseCsq p d).1).ser = d.ser := by
  unfold parseCsq; (try dsimp only); split <;> rfl
@[simp] theorem parseCsq_isOpen (p : Platform) (d : SimDev S R) : ((parseCsq p d).1).isOpen = d.isOpen := by
  unfold parseCsq; (try dsimp only); split <;> rfl
@[simp] theorem parseCsq_rbuf (p : Platform) (d : SimDev S R) : ((parseCsq p d).1).rbuf = d.rbuf := by
  unfold parseCsq; (try dsimp only); split <;> rfl
@[simp] theorem parseCsq_wbuf (p : Platform) (d : SimDev S R) : ((parseCsq p d).1).wbuf = d.wbuf := by
  unfold parseCsq; (try dsimp only); split <;> rfl
@[simp] theorem parseCsq_typ (p : Platform) (d : SimDev S R) : ((parseCsq p d).1).typ = d.typ := by
  unfold parseCsq; (try dsimp only); split <;> rfl
@[simp] theorem parseCsq_host (p : Platform) (d : SimDev S R) : ((parseCsq p d).1).host = d.host := by
  unfold parseCsq; (try dsimp only); split <;> rfl
@[simp] theorem parseCsq_port (p : Platform) (d : SimDev S R) : ((parseCsq p d).1).port = d.port := by
  unfold parseCsq; (try dsimp only); split <;> rfl
@[simp] theorem parseCsq_connectPending (p : Platform) (d : SimDev S R) : ((parseCsq p d).1).connectPending = d.connectPending := by
  unfold parseCsq; (try dsimp only); split <;> rfl
@[simp] theorem parseCsq_resetPending (p : Platform) (d : SimDev S R) : ((parseCsq p d).1).resetPending = d.resetPending := by
  unfold parseCsq; (try dsimp only); split <;> rfl
@[simp] theorem parseCsq_dataPending (p : Platform) (d : SimDev S R) : ((parseCsq p d).1).dataPending = d.dataPending := by
  unfold parseCsq; (try dsimp only); split <;> rfl
@[simp] theorem parseCsq_disconnectPending (p : Platform) (d : SimDev S R) : ((parseCsq p d).1).disconnectPending = d.disconnectPending := by
  unfold parseCsq; (try dsimp only); split <;> rfl
@[simp] theorem parseCsq_ipConnected (p : Platform) (d : SimDev S R) : ((parseCsq p d).1).ipConnected = d.ipConnected := by
  unfold parseCsq; (try dsimp only); split <;> rfl
@[simp] theorem parseCsq_lineRead (p : Platform) (d : SimDev S R) : ((parseCsq p d).1).lineRead = d.lineRead := by
  unfold parseCsq; (try dsimp only); split <;> rfl
@[simp] theorem parseCsq_serialLocked (p : Platform) (d : SimDev S R) : ((parseCsq p d).1).serialLocked = d.serialLocked := by
  unfold parseCsq; (try dsimp only); split <;> rfl
@[simp] theorem parseCsq_cs (p : Platform) (d : SimDev S R) : ((parseCsq p d).1).cs = d.cs := by
  unfold parseCsq; (try dsimp only); split <;> rfl
@[simp] theorem parseCsq_wait (p : Platform) (d : SimDev S R) : ((parseCsq p d).1).wait = d.wait := by
  unfold parseCsq; (try dsimp only); split <;> rfl
@[simp] theorem parseCsq_line (p : Platform) (d : SimDev S R) : ((parseCsq p d).1).line = d.line := by
  unfold parseCsq; (try dsimp only); split <;> rfl
@[simp] theorem parseCsq_lbFill (p : Platform) (d : SimDev S R) : ((parseCsq p d).1).lbFill = d.lbFill := by
  unfold parseCsq; (try dsimp only); split <;> rfl
@[simp] theorem parseCsq_snd (p : Platform) (d : SimDev S R) : ((parseCsq p d).1).snd = d.snd := by
  unfold parseCsq; (try dsimp only); split <;> rfl
@[simp] theorem parseCsq_rep (p : Platform) (d : SimDev S R) : ((parseCsq p d).1).rep = d.rep := by
  unfold parseCsq; (try dsimp only); split <;> rfl
@[simp] theorem parseCsq_bytesToWrite (p : Platform) (d : SimDev S R) : ((parseCsq p d).1).bytesToWrite = d.bytesToWrite := by
  unfold parseCsq; (try dsimp only); split <;> rfl
@[simp] theorem parseCsq_bytesToReceive (p : Platform) (d : SimDev S R) : ((parseCsq p d).1).bytesToReceive = d.bytesToReceive := by
  unfold parseCsq; (try dsimp only); split <;> rfl
@[simp] theorem parseCsq_bytesToRead (p : Platform) (d : SimDev S R) : ((parseCsq p d).1).bytesToRead = d.bytesToRead := by
  unfold parseCsq; (try dsimp only); split <;> rfl
@[simp] theorem parseCsq_delay (p : Platform) (d : SimDev S R) : ((parseCsq p d).1).delay = d.delay := by
  unfold parseCsq; (try dsimp only); split <;> rfl
@[simp] theorem parseCsq_ub (p : Platform) (d : SimDev S R) : ((parseCsq p d).1).ub = d.ub := by
  unfold parseCsq; (try dsimp only); split <;> rfl
@[simp] theorem parseCsq_trace (p : Platform) (d : SimDev S R) : ((parseCsq p d).1).trace = d.trace := by
  unfold parseCsq; (try dsimp only); split <;> rfl
@[simp] theorem parseCsq_ext (p : Platform) (d : SimDev S R) : ((parseCsq p d).1).ext = d.ext := by
  unfold parseCsq; (try dsimp only); split <;> rfl

end parseCsq

section parseIDReply

@[simp] theorem parseIDReply_ser (d : SimDev S R) : (d.parseIDReply.1).ser = d.ser := by
  unfold parseIDReply parseIDReply.go; (try dsimp only); (repeat' split) <;> rfl
@[simp] theorem parseIDReply_isOpen (d : SimDev S R) : (d.parseIDReply.1).isOpen = d.isOpen := by
  unfold parseIDReply parseIDReply.go; (try dsimp only); (repeat' split) <;> rfl
@[simp] theorem parseIDReply_rbuf (d : SimDev S R) : (d.parseIDReply.1).rbuf = d.rbuf := by
  unfold parseIDReply parseIDReply.go; (try dsimp only); (repeat' split) <;> rfl
@[simp] theorem parseIDReply_wbuf (d : SimDev S R) : (d.parseIDReply.1).wbuf = d.wbuf := by
  unfold parseIDReply parseIDReply.go; (try dsimp only); (repeat' split) <;> rfl
@[simp] theorem parseIDReply_typ (d : SimDev S R) : (d.parseIDReply.1).typ = d.typ := by
  unfold parseIDReply parseIDReply.go; (try dsimp only); (repeat' split) <;> rfl
@[simp] theorem parseIDReply_host (d : SimDev S R) : (d.parseIDReply.1).host = d.host := by
  unfold parseIDReply parseIDReply.go; (try dsimp only); (repeat' split) <;> rfl
@[simp] theorem parseIDReply_port (d : SimDev S R) : (d.parseIDReply.1).port = d.port := by
  unfold parseIDReply parseIDReply.go; (try dsimp only); (repeat' split) <;> rfl
@[simp] theorem parseIDReply_connectPending (d : SimDev S R) : (d.parseIDReply.1).connectPending = d.connectPending := by
  unfold parseIDReply parseIDReply.go; (try dsimp only); (repeat' split) <;> rfl
@[simp] theorem parseIDReply_resetPending (d : SimDev S R) : (d.parseIDReply.1).resetPending = d.resetPending := by
  unfold parseIDReply parseIDReply.go; (try dsimp only); (repeat' split) <;> rfl
@[simp] theorem parseIDReply_dataPending (d : SimDev S R) : (d.parseIDReply.1).dataPending = d.dataPending := by
  unfold parseIDReply parseIDReply.go; (try dsimp only); (repeat' split) <;> rfl
@[simp] theorem parseIDReply_disconnectPending (d : SimDev S R) : (d.parseIDReply.1).disconnectPending = d.disconnectPending := by
  unfold parseIDReply parseIDReply.go; (try dsimp only); (repeat' split) <;> rfl
@[simp] theorem parseIDReply_ipConnected (d : SimDev S R) : (d.parseIDReply.1).ipConnected = d.ipConnected := by
  unfold parseIDReply parseIDReply.go; (try dsimp only); (repeat' split) <;> rfl
@[simp] theorem parseIDReply_lineRead (d : SimDev S R) : (d.parseIDReply.1).lineRead = d.lineRead := by
  unfold parseIDReply parseIDReply.go; (try dsimp only); (repeat' split) <;> rfl
@[simp] theorem parseIDReply_serialLocked (d : SimDev S R) : (d.parseIDReply.1).serialLocked = d.serialLocked := by
  unfold parseIDReply parseIDReply.go; (try dsimp only); (repeat' split) <;> rfl
@[simp] theorem parseIDReply_cs (d : SimDev S R) : (d.parseIDReply.1).cs = d.cs := by
  unfold parseIDReply parseIDReply.go; (try dsimp only); (repeat' split) <;> rfl
@[simp] theorem parseIDReply_wait (d : SimDev S R) : (d.parseIDReply.1).wait = d.wait := by
  unfold parseIDReply parseIDReply.go; (try dsimp only); (repeat' split) <;> rfl
@[simp] theorem parseIDReply_line (d : SimDev S R) : (d.parseIDReply.1).line = d.line := by
  unfold parseIDReply parseIDReply.go; (try dsimp only); (repeat' split) <;> rfl
@[simp] theorem parseIDReply_lbFill (d : SimDev S R) : (d.parseIDReply.1).lbFill = d.lbFill := by
  unfold parseIDReply parseIDReply.go; (try dsimp only); (repeat' split) <;> rfl
@[simp] theorem parseIDReply_snd (d : SimDev S R) : (d.parseIDReply.1).snd = d.snd := by
  unfold parseIDReply parseIDReply.go; (try dsimp only); (repeat' split) <;> rfl
@[simp] theorem parseIDReply_rep (d : SimDev S R) : (d.parseIDReply.1).rep = d.rep := by
  unfold parseIDReply parseIDReply.go; (try dsimp only); (repeat' split) <;> rfl
@[simp] theorem parseIDReply_bytesToWrite (d : SimDev S R) : (d.parseIDReply.1).bytesToWrite = d.bytesToWrite := by
  unfold parseIDReply parseIDReply.go; (try dsimp only); (repeat' split) <;> rfl
@[simp] theorem parseIDReply_bytesToReceive (d : SimDev S R) : (d.parseIDReply.1).bytesToReceive = d.bytesToReceive := by
  unfold parseIDReply parseIDReply.go; (try dsimp only); (repeat' split) <;> rfl
@[simp] theorem parseIDReply_bytesToRead (d : SimDev S R) : (d.parseIDReply.1).bytesToRead = d.bytesToRead := by
  unfold parseIDReply parseIDReply.go; (try dsimp only); (repeat' split) <;> rfl
@[simp] theorem parseIDReply_rssi (d : SimDev S R) : (d.parseIDReply.1).rssi = d.rssi := by
  unfold parseIDReply parseIDReply.go; (try dsimp only); (repeat' split) <;> rfl
@[simp] theorem parseIDReply_delay (d : SimDev S R) : (d.parseIDReply.1).delay = d.delay := by
  unfold parseIDReply parseIDReply.go; (try dsimp only); (repeat' split) <;> rfl
@[simp] theorem parseIDReply_ub (d : SimDev S R) : (d.parseIDReply.1).ub = d.ub := by
  unfold parseIDReply parseIDReply.go; (try dsimp only); (repeat' split) <;> rfl
@[simp] theorem parseIDReply_trace (d : SimDev S R) : (d.parseIDReply.1).trace = d.trace := by
  unfold parseIDReply parseIDReply.go; (try dsimp only); (repeat' split) <;> rfl

end parseIDReply

section checkConnectionState

@[simp] theorem checkConnectionState_ser (d : SimDev S R) (c : List Byte) : ((d.checkConnectionState c)).ser = d.ser := by
  unfold checkConnectionState; (try dsimp only); (repeat' split) <;> rfl
@[simp] theorem checkConnectionState_isOpen (d : SimDev S R) (c : List Byte) : ((d.checkConnectionState c)).isOpen = d.isOpen := by
  unfold checkConnectionState; (try dsimp only); (repeat' split) <;> rfl
@[simp] theorem checkConnectionState_rbuf (d : SimDev S R) (c : List Byte) : ((d.checkConnectionState c)).rbuf = d.rbuf := by
  unfold checkConnectionState; (try dsimp only); (repeat' split) <;> rfl
@[simp] theorem checkConnectionState_wbuf (d : SimDev S R) (c : List Byte) : ((d.checkConnectionState c)).wbuf = d.wbuf := by
  unfold checkConnectionState; (try dsimp only); (repeat' split) <;> rfl
@[simp] theorem checkConnectionState_typ (d : SimDev S R) (c : List Byte) : ((d.checkConnectionState c)).typ = d.typ := by
  unfold checkConnectionState; (try dsimp only); (repeat' split) <;> rfl
@[simp] theorem checkConnectionState_host (d : SimDev S R) (c : List Byte) : ((d.checkConnectionState c)).host = d.host := by
  unfold checkConnectionState; (try dsimp only); (repeat' split) <;> rfl
@[simp] theorem checkConnectionState_port (d : SimDev S R) (c : List Byte) : ((d.checkConnectionState c)).port = d.port := by
  unfold checkConnectionState; (try dsimp only); (repeat' split) <;> rfl
@[simp] theorem checkConnectionState_connectPending (d : SimDev S R) (c : List Byte) : ((d.checkConnectionState c)).connectPending = d.connectPending := by
  unfold checkConnectionState; (try dsimp only); (repeat' split) <;> rfl
@[simp] theorem checkConnectionState_resetPending (d : SimDev S R) (c : List Byte) : ((d.checkConnectionState c)).resetPending = d.resetPending := by
  unfold checkConnectionState; (try dsimp only); (repeat' split) <;> rfl
@[simp] theorem checkConnectionState_disconnectPending (d : SimDev S R) (c : List Byte) : ((d.checkConnectionState c)).disconnectPending = d.disconnectPending := by
  unfold checkConnectionState; (try dsimp only); (repeat' split) <;> rfl
@[simp] theorem checkConnectionState_lineRead (d : SimDev S R) (c : List Byte) : ((d.checkConnectionState c)).lineRead = d.lineRead := by
  unfold checkConnectionState; (try dsimp only); (repeat' split) <;> rfl
@[simp] theorem checkConnectionState_serialLocked (d : SimDev S R) (c : List Byte) : ((d.checkConnectionState c)).serialLocked = d.serialLocked := by
  unfold checkConnectionState; (try dsimp only); (repeat' split) <;> rfl
@[simp] theorem checkConnectionState_cs (d : SimDev S R) (c : List Byte) : ((d.checkConnectionState c)).cs = d.cs := by
  unfold checkConnectionState; (try dsimp only); (repeat' split) <;> rfl
@[simp] theorem checkConnectionState_line (d : SimDev S R) (c : List Byte) : ((d.checkConnectionState c)).line = d.line := by
  unfold checkConnectionState; (try dsimp only); (repeat' split) <;> rfl
@[simp] theorem checkConnectionState_lbFill (d : SimDev S R) (c : List Byte) : ((d.checkConnectionState c)).lbFill = d.lbFill := by
  unfold checkConnectionState; (try dsimp only); (repeat' split) <;> rfl
@[simp] theorem checkConnectionState_snd (d : SimDev S R) (c : List Byte) : ((d.checkConnectionState c)).snd = d.snd := by
  unfold checkConnectionState; (try dsimp only); (repeat' split) <;> rfl
@[simp] theorem checkConnectionState_rep (d : SimDev S R) (c : List Byte) : ((d.checkConnectionState c)).rep = d.rep := by
  unfold checkConnectionState; (try dsimp only); (repeat' split) <;> rfl
@[simp] theorem checkConnectionState_bytesToWrite (d : SimDev S R) (c : List Byte) : ((d.checkConnectionState c)).bytesToWrite = d.bytesToWrite := by
  unfold checkConnectionState; (try dsimp only); (repeat' split) <;> rfl
@[simp] theorem checkConnectionState_bytesToReceive (d : SimDev S R) (c : List Byte) : ((d.checkConnectionState c)).bytesToReceive = d.bytesToReceive := by
  unfold checkConnectionState; (try dsimp only); (repeat' split) <;> rfl
@[simp] theorem checkConnectionState_bytesToRead (d : SimDev S R) (c : List Byte) : ((d.checkConnectionState c)).bytesToRead = d.bytesToRead := by
  unfold checkConnectionState; (try dsimp only); (repeat' split) <;> rfl
@[simp] theorem checkConnectionState_rssi (d : SimDev S R) (c : List Byte) : ((d.checkConnectionState c)).rssi = d.rssi := by
  unfold checkConnectionState; (try dsimp only); (repeat' split) <;> rfl
@[simp] theorem checkConnectionState_delay (d : SimDev S R) (c : List Byte) : ((d.checkConnectionState c)).delay = d.delay := by
  unfold checkConnectionState; (try dsimp only); (repeat' split) <;> rfl
@[simp] theorem checkConnectionState_ub (d : SimDev S R) (c : List Byte) : ((d.checkConnectionState c)).ub = d.ub := by
  unfold checkConnectionState; (try dsimp only); (repeat' split) <;> rfl
@[simp] theorem checkConnectionState_trace (d : SimDev S R) (c : List Byte) : ((d.checkConnectionState c)).trace = d.trace := by
  unfold checkConnectionState; (try dsimp only); (repeat' split) <;> rfl
@[simp] theorem checkConnectionState_ext (d : SimDev S R) (c : List Byte) : ((d.checkConnectionState c)).ext = d.ext := by
  unfold checkConnectionState; (try dsimp only); (repeat' split) <;> rfl

end checkConnectionState

theorem fillLine_rep_const {X : Type} (d : Dev S R X) (stop : Mem → Nat → Byte → Option R)
    (h : ∀ m k c x, stop m k c = some x → x = d.rep) : (d.fillLine stop).1.rep = d.rep := by
  have key : ∀ (n : Nat) (s : Ser) (l : Mem) (k : Nat) x,
      (Dev.fillLoop stop n s l k).2.2.2 = some x → x.1 = d.rep := by
    intro n
    induction n with
    | zero => intro s l k x h; simp [Dev.fillLoop] at h
    | succ n ih =>
      intro s l k x hx
      unfold Dev.fillLoop at hx
      simp only at hx
      split at hx
      · simp at hx
      · split at hx
        · rename_i y hy
          have := h _ _ _ _ hy
          simp at hx
          rw [← hx]; exact this
        · exact ih _ _ _ _ hx
  unfold Dev.fillLine
  split
  · dsimp only
    split
    · rfl
    · rename_i x n hx
      exact key _ _ _ _ _ hx
  · rfl

@[simp] theorem fillLineBuffer_rep (d : SimDev S R) : d.fillLineBuffer.1.rep = d.rep := by
  apply fillLine_rep_const
  intro m k c x hx
  unfold lineStop at hx
  split at hx
  · exact (Option.some.inj hx).symm
  · simp at hx

end SimDev

namespace Espressif

section fillLineBuffer

@[simp] theorem fillLineBuffer_isOpen (d : D) : ((fillLineBuffer d).1).isOpen = d.isOpen := by
  simp [fillLineBuffer]
@[simp] theorem fillLineBuffer_rbuf (d : D) : ((fillLineBuffer d).1).rbuf = d.rbuf := by
  simp [fillLineBuffer]
@[simp] theorem fillLineBuffer_wbuf (d : D) : ((fillLineBuffer d).1).wbuf = d.wbuf := by
  simp [fillLineBuffer]
@[simp] theorem fillLineBuffer_typ (d : D) : ((fillLineBuffer d).1).typ = d.typ := by
  simp [fillLineBuffer]
@[simp] theorem fillLineBuffer_host (d : D) : ((fillLineBuffer d).1).host = d.host := by
  simp [fillLineBuffer]
@[simp] theorem fillLineBuffer_port (d : D) : ((fillLineBuffer d).1).port = d.port := by
  simp [fillLineBuffer]
@[simp] theorem fillLineBuffer_connectPending (d : D) : ((fillLineBuffer d).1).connectPending = d.connectPending := by
  simp [fillLineBuffer]
@[simp] theorem fillLineBuffer_resetPending (d : D) : ((fillLineBuffer d).1).resetPending = d.resetPending := by
  simp [fillLineBuffer]
@[simp] theorem fillLineBuffer_dataPending (d : D) : ((fillLineBuffer d).1).dataPending = d.dataPending := by
  simp [fillLineBuffer]
@[simp] theorem fillLineBuffer_disconnectPending (d : D) : ((fillLineBuffer d).1).disconnectPending = d.disconnectPending := by
  simp [fillLineBuffer]
@[simp] theorem fillLineBuffer_ipConnected (d : D) : ((fillLineBuffer d).1).ipConnected = d.ipConnected := by
  simp [fillLineBuffer]
@[simp] theorem fillLineBuffer_lineRead (d : D) : ((fillLineBuffer d).1).lineRead = d.lineRead := by
  simp [fillLineBuffer]
@[simp] theorem fillLineBuffer_serialLocked (d : D) : ((fillLineBuffer d).1).serialLocked = d.serialLocked := by
  simp [fillLineBuffer]
@[simp] theorem fillLineBuffer_cs (d : D) : ((fillLineBuffer d).1).cs = d.cs := by
  simp [fillLineBuffer]
@[simp] theorem fillLineBuffer_wait (d : D) : ((fillLineBuffer d).1).wait = d.wait := by
  simp [fillLineBuffer]
@[simp] theorem fillLineBuffer_snd (d : D) : ((fillLineBuffer d).1).snd = d.snd := by
  simp [fillLineBuffer]
@[simp] theorem fillLineBuffer_bytesToWrite (d : D) : ((fillLineBuffer d).1).bytesToWrite = d.bytesToWrite := by
  simp [fillLineBuffer]
@[simp] theorem fillLineBuffer_bytesToReceive (d : D) : ((fillLineBuffer d).1).bytesToReceive = d.bytesToReceive := by
  simp [fillLineBuffer]
@[simp] theorem fillLineBuffer_bytesToRead (d : D) : ((fillLineBuffer d).1).bytesToRead = d.bytesToRead := by
  simp [fillLineBuffer]
@[simp] theorem fillLineBuffer_rssi (d : D) : ((fillLineBuffer d).1).rssi = d.rssi := by
  simp [fillLineBuffer]
@[simp] theorem fillLineBuffer_delay (d : D) : ((fillLineBuffer d).1).delay = d.delay := by
  simp [fillLineBuffer]
@[simp] theorem fillLineBuffer_ub (d : D) : ((fillLineBuffer d).1).ub = d.ub := by
  simp [fillLineBuffer]
@[simp] theorem fillLineBuffer_ext (d : D) : ((fillLineBuffer d).1).ext = d.ext := by
  simp [fillLineBuffer]

end fillLineBuffer

section sendCiprcvdata

@[simp] theorem sendCiprcvdata_isOpen (d : D) : ((sendCiprcvdata d).1).isOpen = d.isOpen := by
  unfold sendCiprcvdata; (try dsimp only); (repeat' split) <;> rfl
@[simp] theorem sendCiprcvdata_rbuf (d : D) : ((sendCiprcvdata d).1).rbuf = d.rbuf := by
  unfold sendCiprcvdata; (try dsimp only); (repeat' split) <;> rfl
@[simp] theorem sendCiprcvdata_wbuf (d : D) : ((sendCiprcvdata d).1).wbuf = d.wbuf := by
  unfold sendCiprcvdata; (try dsimp only); (repeat' split) <;> rfl
@[simp] theorem sendCiprcvdata_typ (d : D) : ((sendCiprcvdata d).1).typ = d.typ := by
  unfold sendCiprcvdata; (try dsimp only); (repeat' split) <;> rfl
@[simp] theorem sendCiprcvdata_host (d : D) : ((sendCiprcvdata d).1).host = d.host := by
  unfold sendCiprcvdata; (try dsimp only); (repeat' split) <;> rfl
@[simp] theorem sendCiprcvdata_port (d : D) : ((sendCiprcvdata d).1).port = d.port := by
  unfold sendCiprcvdata; (try dsimp only); (repeat' split) <;> rfl
@[simp] theorem sendCiprcvdata_connectPending (d : D) : ((sendCiprcvdata d).1).connectPending = d.connectPending := by
  unfold sendCiprcvdata; (try dsimp only); (repeat' split) <;> rfl
@[simp] theorem sendCiprcvdata_resetPending (d : D) : ((sendCiprcvdata d).1).resetPending = d.resetPending := by
  unfold sendCiprcvdata; (try dsimp only); (repeat' split) <;> rfl
@[simp] theorem sendCiprcvdata_dataPending (d : D) : ((sendCiprcvdata d).1).dataPending = d.dataPending := by
  unfold sendCiprcvdata; (try dsimp only); (repeat' split) <;> rfl
@[simp] theorem sendCiprcvdata_disconnectPending (d : D) : ((sendCiprcvdata d).1).disconnectPending = d.disconnectPending := by
  unfold sendCiprcvdata; (try dsimp only); (repeat' split) <;> rfl
@[simp] theorem sendCiprcvdata_ipConnected (d : D) : ((sendCiprcvdata d).1).ipConnected = d.ipConnected := by
  unfold sendCiprcvdata; (try dsimp only); (repeat' split) <;> rfl
@[simp] theorem sendCiprcvdata_lineRead (d : D) : ((sendCiprcvdata d).1).lineRead = d.lineRead := by
  unfold sendCiprcvdata; (try dsimp only); (repeat' split) <;> rfl
@[simp] theorem sendCiprcvdata_serialLocked (d : D) : ((sendCiprcvdata d).1).serialLocked = d.serialLocked := by
  unfold sendCiprcvdata; (try dsimp only); (repeat' split) <;> rfl
@[simp] theorem sendCiprcvdata_cs (d : D) : ((sendCiprcvdata d).1).cs = d.cs := by
  unfold sendCiprcvdata; (try dsimp only); (repeat' split) <;> rfl
@[simp] theorem sendCiprcvdata_wait (d : D) : ((sendCiprcvdata d).1).wait = d.wait := by
  unfold sendCiprcvdata; (try dsimp only); (repeat' split) <;> rfl
@[simp] theorem sendCiprcvdata_line (d : D) : ((sendCiprcvdata d).1).line = d.line := by
  unfold sendCiprcvdata; (try dsimp only); (repeat' split) <;> rfl
@[simp] theorem sendCiprcvdata_lbFill (d : D) : ((sendCiprcvdata d).1).lbFill = d.lbFill := by
  unfold sendCiprcvdata; (try dsimp only); (repeat' split) <;> rfl
@[simp] theorem sendCiprcvdata_snd (d : D) : ((sendCiprcvdata d).1).snd = d.snd := by
  unfold sendCiprcvdata; (try dsimp only); (repeat' split) <;> rfl
@[simp] theorem sendCiprcvdata_rep (d : D) : ((sendCiprcvdata d).1).rep = d.rep := by
  unfold sendCiprcvdata; (try dsimp only); (repeat' split) <;> rfl
@[simp] theorem sendCiprcvdata_bytesToWrite (d : D) : ((sendCiprcvdata d).1).bytesToWrite = d.bytesToWrite := by
  unfold sendCiprcvdata; (try dsimp only); (repeat' split) <;> rfl
@[simp] theorem sendCiprcvdata_bytesToReceive (d : D) : ((sendCiprcvdata d).1).bytesToReceive = d.bytesToReceive := by
  unfold sendCiprcvdata; (try dsimp only); (repeat' split) <;> rfl
@[simp] theorem sendCiprcvdata_bytesToRead (d : D) : ((sendCiprcvdata d).1).bytesToRead = d.bytesToRead := by
  unfold sendCiprcvdata; (try dsimp only); (repeat' split) <;> rfl
@[simp] theorem sendCiprcvdata_rssi (d : D) : ((sendCiprcvdata d).1).rssi = d.rssi := by
  unfold sendCiprcvdata; (try dsimp only); (repeat' split) <;> rfl
@[simp] theorem sendCiprcvdata_delay (d : D) : ((sendCiprcvdata d).1).delay = d.delay := by
  unfold sendCiprcvdata; (try dsimp only); (repeat' split) <;> rfl
@[simp] theorem sendCiprcvdata_ub (d : D) : ((sendCiprcvdata d).1).ub = d.ub := by
  unfold sendCiprcvdata; (try dsimp only); (repeat' split) <;> rfl
@[simp] theorem sendCiprcvdata_ext (d : D) : ((sendCiprcvdata d).1).ext = d.ext := by
  unfold sendCiprcvdata; (try dsimp only); (repeat' split) <;> rfl

end sendCiprcvdata

section parseCiprecvdata

@[simp] theorem parseCiprecvdata_ser (p : Platform) (d : D) : ((parseCiprecvdata p d).1).ser = d.ser := by
  unfold parseCiprecvdata; (try dsimp only); split <;> rfl
@[simp] theorem parseCiprecvdata_isOpen (p : Platform) (d : D) : ((parseCiprecvdata p d).1).isOpen = d.isOpen := by
  unfold parseCiprecvdata; (try dsimp only); split <;> rfl
@[simp] theorem parseCiprecvdata_rbuf (p : Platform) (d : D) : ((parseCiprecvdata p d).1).rbuf = d.rbuf := by
  unfold parseCiprecvdata; (try dsimp only); split <;> rfl
@[simp] theorem parseCiprecvdata_wbuf (p : Platform) (d : D) : ((parseCiprecvdata p d).1).wbuf = d.wbuf := by
  unfold parseCiprecvdata; (try dsimp only); split <;> rfl
@[simp] theorem parseCiprecvdata_typ (p : Platform) (d : D) : ((parseCiprecvdata p d).1).typ = d.typ := by
  unfold parseCiprecvdata; (try dsimp only); split <;> rfl
@[simp] theorem parseCiprecvdata_host (p : Platform) (d : D) : ((parseCiprecvdata p d).1).host = d.host := by
  unfold parseCiprecvdata; (try dsimp only); split <;> rfl
@[simp] theorem parseCiprecvdata_port (p : Platform) (d : D) : ((parseCiprecvdata p d).1).port = d.port := by
  unfold parseCiprecvdata; (try dsimp only); split <;> rfl
@[simp] theorem parseCiprecvdata_connectPending (p : Platform) (d : D) : ((parseCiprecvdata p d).1).connectPending = d.connectPending := by
  unfold parseCiprecvdata; (try dsimp only); split <;> rfl
@[simp] theorem parseCiprecvdata_resetPending (p : Platform) (d : D) : ((parseCiprecvdata p d).1).resetPending = d.resetPending := by
  unfold parseCiprecvdata; (try dsimp only); split <;> rfl
@[simp] theorem parseCiprecvdata_dataPending (p : Platform) (d : D) : ((parseCiprecvdata p d).1).dataPending = d.dataPending := by
  unfold parseCiprecvdata; (try dsimp only); split <;> rfl
@[simp] theorem parseCiprecvdata_disconnectPending (p : Platform) (d : D) : ((parseCiprecvdata p d).1).disconnectPending = d.disconnectPending := by
  unfold parseCiprecvdata; (try dsimp only); split <;> rfl
@[simp] theorem parseCiprecvdata_ipConnected (p : Platform) (d : D) : ((parseCiprecvdata p d).1).ipConnected = d.ipConnected := by
  unfold parseCiprecvdata; (try dsimp only); split <;> rfl
@[simp] theorem parseCiprecvdata_serialLocked (p : Platform) (d : D) : ((parseCiprecvdata p d).1).serialLocked = d.serialLocked := by
  unfold parseCiprecvdata; (try dsimp only); split <;> rfl
@[simp] theorem parseCiprecvdata_cs (p : Platform) (d : D) : ((parseCiprecvdata p d).1).cs = d.cs := by
  unfold parseCiprecvdata; (try dsimp only); split <;> rfl
@[simp] theorem parseCiprecvdata_wait (p : Platform) (d : D) : ((parseCiprecvdata p d).1).wait = d.wait := by
  unfold parseCiprecvdata; (try dsimp only); split <;> rfl
@[simp] theorem parseCiprecvdata_line (p : Platform) (d : D) : ((parseCiprecvdata p d).1).line = d.line := by
  unfold parseCiprecvdata; (try dsimp only); split <;> rfl
@[simp] theorem parseCiprecvdata_lbFill (p : Platform) (d : D) : ((parseCiprecvdata p d).1).lbFill = d.lbFill := by
  unfold parseCiprecvdata; (try dsimp only); split <;> rfl
@[simp] theorem parseCiprecvdata_snd (p : Platform) (d : D) : ((parseCiprecvdata p d).1).snd = d.snd := by
  unfold parseCiprecvdata; (try dsimp only); split <;> rfl
@[simp] theorem parseCiprecvdata_rep (p : Platform) (d : D) : ((parseCiprecvdata p d).1).rep = d.rep := by
  unfold parseCiprecvdata; (try dsimp only); split <;> rfl
@[simp] theorem parseCiprecvdata_bytesToWrite (p : Platform) (d : D) : ((parseCiprecvdata p d).1).bytesToWrite = d.bytesToWrite := by
  unfold parseCiprecvdata; (try dsimp only); split <;> rfl
@[simp] theorem parseCiprecvdata_rssi (p : Platform) (d : D) : ((parseCiprecvdata p d).1).rssi = d.rssi := by
  unfold parseCiprecvdata; (try dsimp only); split <;> rfl
@[simp] theorem parseCiprecvdata_delay (p : Platform) (d : D) : ((parseCiprecvdata p d).1).delay = d.delay := by
  unfold parseCiprecvdata; (try dsimp only); split <;> rfl
@[simp] theorem parseCiprecvdata_ub (p : Platform) (d : D) : ((parseCiprecvdata p d).1).ub = d.ub := by
  unfold parseCiprecvdata; (try dsimp only); split <;> rfl
@[simp] theorem parseCiprecvdata_trace (p : Platform) (d : D) : ((parseCiprecvdata p d).1).trace = d.trace := by
  unfold parseCiprecvdata; (try dsimp only); split <;> rfl
@[simp] theorem parseCiprecvdata_ext (p : Platform) (d : D) : ((parseCiprecvdata p d).1).ext = d.ext := by
  unfold parseCiprecvdata; (try dsimp only); split <;> rfl

end parseCiprecvdata

section connect

@[simp] theorem connect_ser (d : D) : ((connect d).1).ser = d.ser := by
  unfold connect; (try dsimp only); (repeat' split) <;> simp
@[simp] theorem connect_isOpen (d : D) : ((connect d).1).isOpen = d.isOpen := by
  unfold connect; (try dsimp only); (repeat' split) <;> simp
@[simp] theorem connect_rbuf (d : D) : ((connect d).1).rbuf = d.rbuf := by
  unfold connect; (try dsimp only); (repeat' split) <;> simp
@[simp] theorem connect_wbuf (d : D) : ((connect d).1).wbuf = d.wbuf := by
  unfold connect; (try dsimp only); (repeat' split) <;> simp
@[simp] theorem connect_typ (d : D) : ((connect d).1).typ = d.typ := by
  unfold connect; (try dsimp only); (repeat' split) <;> simp
@[simp] theorem connect_host (d : D) : ((connect d).1).host = d.host := by
  unfold connect; (try dsimp only); (repeat' split) <;> simp
@[simp] theorem connect_port (d : D) : ((connect d).1).port = d.port := by
  unfold connect; (try dsimp only); (repeat' split) <;> simp
@[simp] theorem connect_resetPending (d : D) : ((connect d).1).resetPending = d.resetPending := by
  unfold connect; (try dsimp only); (repeat' split) <;> simp
@[simp] theorem connect_dataPending (d : D) : ((connect d).1).dataPending = d.dataPending := by
  unfold connect; (try dsimp only); (repeat' split) <;> simp
@[simp] theorem connect_disconnectPending (d : D) : ((connect d).1).disconnectPending = d.disconnectPending := by
  unfold connect; (try dsimp only); (repeat' split) <;> simp
@[simp] theorem connect_ipConnected (d : D) : ((connect d).1).ipConnected = d.ipConnected := by
  unfold connect; (try dsimp only); (repeat' split) <;> simp
@[simp] theorem connect_lineRead (d : D) : ((connect d).1).lineRead = d.lineRead := by
  unfold connect; (try dsimp only); (repeat' split) <;> simp
@[simp] theorem connect_serialLocked (d : D) : ((connect d).1).serialLocked = d.serialLocked := by
  unfold connect; (try dsimp only); (repeat' split) <;> simp
@[simp] theorem connect_cs (d : D) : ((connect d).1).cs = d.cs := by
  unfold connect; (try dsimp only); (repeat' split) <;> simp
@[simp] theorem connect_wait (d : D) : ((connect d).1).wait = d.wait := by
  unfold connect; (try dsimp only); (repeat' split) <;> simp
@[simp] theorem connect_line (d : D) : ((connect d).1).line = d.line := by
  unfold connect; (try dsimp only); (repeat' split) <;> simp
@[simp] theorem connect_lbFill (d : D) : ((connect d).1).lbFill = d.lbFill := by
  unfold connect; (try dsimp only); (repeat' split) <;> simp
@[simp] theorem connect_snd (d : D) : ((connect d).1).snd = d.snd := by
  unfold connect; (try dsimp only); (repeat' split) <;> simp
@[simp] theorem connect_rep (d : D) : ((connect d).1).rep = d.rep := by
  unfold connect; (try dsimp only); (repeat' split) <;> simp
@[simp] theorem connect_bytesToWrite (d : D) : ((connect d).1).bytesToWrite = d.bytesToWrite := by
  unfold connect; (try dsimp only); (repeat' split) <;> simp
@[simp] theorem connect_bytesToReceive (d : D) : ((connect d).1).bytesToReceive = d.bytesToReceive := by
  unfold connect; (try dsimp only); (repeat' split) <;> simp
@[simp] theorem connect_bytesToRead (d : D) : ((connect d).1).bytesToRead = d.bytesToRead := by
  unfold connect; (try dsimp only); (repeat' split) <;> simp
@[simp] theorem connect_rssi (d : D) : ((connect d).1).rssi = d.rssi := by
  unfold connect; (try dsimp only); (repeat' split) <;> simp
@[simp] theorem connect_delay (d : D) : ((connect d).1).delay = d.delay := by
  unfold connect; (try dsimp only); (repeat' split) <;> simp
@[simp] theorem connect_trace (d : D) : ((connect d).1).trace = d.trace := by
  unfold connect; (try dsimp only); (repeat' split) <;> simp
@[simp] theorem connect_ext (d : D) : ((connect d).1).ext = d.ext := by
  unfold connect; (try dsimp only); (repeat' split) <;> simp

end connect

end Espressif

namespace CC1352P7

section fillLineBuffer

@[simp] theorem fillLineBuffer_isOpen (d : D) : ((fillLineBuffer d).1).isOpen = d.isOpen := by
  simp [fillLineBuffer]
@[simp] theorem fillLineBuffer_rbuf (d : D) : ((fillLineBuffer d).1).rbuf = d.rbuf := by
  simp [fillLineBuffer]
@[simp] theorem fillLineBuffer_wbuf (d : D) : ((fillLineBuffer d).1).wbuf = d.wbuf := by
  simp [fillLineBuffer]
@[simp] theorem fillLineBuffer_typ (d : D) : ((fillLineBuffer d).1).typ = d.typ := by
  simp [fillLineBuffer]
@[simp] theorem fillLineBuffer_host (d : D) : ((fillLineBuffer d).1).host = d.host := by
  simp [fillLineBuffer]
@[simp] theorem fillLineBuffer_port (d : D) : ((fillLineBuffer d).1).port = d.port := by
  simp [fillLineBuffer]
@[simp] theorem fillLineBuffer_connectPending (d : D) : ((fillLineBuffer d).1).connectPending = d.connectPending := by
  simp [fillLineBuffer]
@[simp] theorem fillLineBuffer_resetPending (d : D) : ((fillLineBuffer d).1).resetPending = d.resetPending := by
  simp [fillLineBuffer]
@[simp] theorem fillLineBuffer_dataPending (d : D) : ((fillLineBuffer d).1).dataPending = d.dataPending := by
  simp [fillLineBuffer]
@[simp] theorem fillLineBuffer_disconnectPending (d : D) : ((fillLineBuffer d).1).disconnectPending = d.disconnectPending := by
  simp [fillLineBuffer]
@[simp] theorem fillLineBuffer_ipConnected (d : D) : ((fillLineBuffer d).1).ipConnected = d.ipConnected := by
  simp [fillLineBuffer]
@[simp] theorem fillLineBuffer_lineRead (d : D) : ((fillLineBuffer d).1).lineRead = d.lineRead := by
  simp [fillLineBuffer]
@[simp] theorem fillLineBuffer_serialLocked (d : D) : ((fillLineBuffer d).1).serialLocked = d.serialLocked := by
  simp [fillLineBuffer]
@[simp] theorem fillLineBuffer_cs (d : D) : ((fillLineBuffer d).1).cs = d.cs := by
  simp [fillLineBuffer]
@[simp] theorem fillLineBuffer_wait (d : D) : ((fillLineBuffer d).1).wait = d.wait := by
  simp [fillLineBuffer]
@[simp] theorem fillLineBuffer_snd (d : D) : ((fillLineBuffer d).1).snd = d.snd := by
  simp [fillLineBuffer]
@[simp] theorem fillLineBuffer_bytesToWrite (d : D) : ((fillLineBuffer d).1).bytesToWrite = d.bytesToWrite := by
  simp [fillLineBuffer]
@[simp] theorem fillLineBuffer_bytesToReceive (d : D) : ((fillLineBuffer d).1).bytesToReceive = d.bytesToReceive := by
  simp [fillLineBuffer]
@[simp] theorem fillLineBuffer_bytesToRead (d : D) : ((fillLineBuffer d).1).bytesToRead = d.bytesToRead := by
  simp [fillLineBuffer]
@[simp] theorem fillLineBuffer_rssi (d : D) : ((fillLineBuffer d).1).rssi = d.rssi := by
  simp [fillLineBuffer]
@[simp] theorem fillLineBuffer_delay (d : D) : ((fillLineBuffer d).1).delay = d.delay := by
  simp [fillLineBuffer]
@[simp] theorem fillLineBuffer_ub (d : D) : ((fillLineBuffer d).1).ub = d.ub := by
  simp [fillLineBuffer]
@[simp] theorem fillLineBuffer_ext (d : D) : ((fillLineBuffer d).1).ext = d.ext := by
  simp [fillLineBuffer]

end fillLineBuffer

section sendCiprcvdata

@[simp] theorem sendCiprcvdata_isOpen (d : D) : ((sendCiprcvdata d).1).isOpen = d.isOpen := by
  unfold sendCiprcvdata; (try dsimp only); (repeat' split) <;> rfl
@[simp] theorem sendCiprcvdata_rbuf (d : D) : ((sendCiprcvdata d).1).rbuf = d.rbuf := by
  unfold sendCiprcvdata; (try dsimp only); (repeat' split) <;> rfl
@[simp] theorem sendCiprcvdata_wbuf (d : D) : ((sendCiprcvdata d).1).wbuf = d.wbuf := by
  unfold sendCiprcvdata; (try dsimp only); (repeat' split) <;> rfl
@[simp] theorem sendCiprcvdata_typ (d : D) : ((sendCiprcvdata d).1).typ = d.typ := by
  unfold sendCiprcvdata; (try dsimp only); (repeat' split) <;> rfl
@[simp] theorem sendCiprcvdata_host (d : D) : ((sendCiprcvdata d).1).host = d.host := by
  unfold sendCiprcvdata; (try dsimp only); (repeat' split) <;> rfl
@[simp] theorem sendCiprcvdata_port (d : D) : ((sendCiprcvdata d).1).port = d.port := by
  unfold sendCiprcvdata; (try dsimp only); (repeat' split) <;> rfl
@[simp] theorem sendCiprcvdata_connectPending (d : D) : ((sendCiprcvdata d).1).connectPending = d.connectPending := by
  unfold sendCiprcvdata; (try dsimp only); (repeat' split) <;> rfl
@[simp] theorem sendCiprcvdata_resetPending (d : D) : ((sendCiprcvdata d).1).resetPending = d.resetPending := by
  unfold sendCiprcvdata; (try dsimp only); (repeat' split) <;> rfl
@[simp] theorem sendCiprcvdata_dataPending (d : D) : ((sendCiprcvdata d).1).dataPending = d.dataPending := by
  unfold sendCiprcvdata; (try dsimp only); (repeat' split) <;> rfl
@[simp] theorem sendCiprcvdata_disconnectPending (d : D) : ((sendCiprcvdata d).1).disconnectPending = d.disconnectPending := by
  unfold sendCiprcvdata; (try dsimp only); (repeat' split) <;> rfl
@[simp] theorem sendCiprcvdata_ipConnected (d : D) : ((sendCiprcvdata d).1).ipConnected = d.ipConnected := by
  unfold sendCiprcvdata; (try dsimp only); (repeat' split) <;> rfl
@[simp] theorem sendCiprcvdata_lineRead (d : D) : ((sendCiprcvdata d).1).lineRead = d.lineRead := by
  unfold sendCiprcvdata; (try dsimp only); (repeat' split) <;> rfl
@[simp] theorem sendCiprcvdata_serialLocked (d : D) : ((sendCiprcvdata d).1).serialLocked = d.serialLocked := by
  unfold sendCiprcvdata; (try dsimp only); (repeat' split) <;> rfl
@[simp] theorem sendCiprcvdata_cs (d : D) : ((sendCiprcvdata d).1).cs = d.cs := by
  unfold sendCiprcvdata; (try dsimp only); (repeat' split) <;> rfl
@[simp] theorem sendCiprcvdata_wait (d : D) : ((sendCiprcvdata d).1).wait = d.wait := by
  unfold sendCiprcvdata; (try dsimp only); (repeat' split) <;> rfl
@[simp] theorem sendCiprcvdata_line (d : D) : ((sendCiprcvdata d).1).line = d.line := by
  unfold sendCiprcvdata; (try dsimp only); (repeat' split) <;> rfl
@[simp] theorem sendCiprcvdata_lbFill (d : D) : ((sendCiprcvdata d).1).lbFill = d.lbFill := by
  unfold sendCiprcvdata; (try dsimp only); (repeat' split) <;> rfl
@[simp] theorem sendCiprcvdata_snd (d : D) : ((sendCiprcvdata d).1).snd = d.snd := by
  unfold sendCiprcvdata; (try dsimp only); (repeat' split) <;> rfl
@[simp] theorem sendCiprcvdata_rep (d : D) : ((sendCiprcvdata d).1).rep = d.rep := by
  unfold sendCiprcvdata; (try dsimp only); (repeat' split) <;> rfl
@[simp] theorem sendCiprcvdata_bytesToWrite (d : D) : ((sendCiprcvdata d).1).bytesToWrite = d.bytesToWrite := by
  unfold sendCiprcvdata; (try dsimp only); (repeat' split) <;> rfl
@[simp] theorem sendCiprcvdata_bytesToReceive (d : D) : ((sendCiprcvdata d).1).bytesToReceive = d.bytesToReceive := by
  unfold sendCiprcvdata; (try dsimp only); (repeat' split) <;> rfl
@[simp] theorem sendCiprcvdata_bytesToRead (d : D) : ((sendCiprcvdata d).1).bytesToRead = d.bytesToRead := by
  unfold sendCiprcvdata; (try dsimp only); (repeat' split) <;> rfl
@[simp] theorem sendCiprcvdata_rssi (d : D) : ((sendCiprcvdata d).1).rssi = d.rssi := by
  unfold sendCiprcvdata; (try dsimp only); (repeat' split) <;> rfl
@[simp] theorem sendCiprcvdata_delay (d : D) : ((sendCiprcvdata d).1).delay = d.delay := by
  unfold sendCiprcvdata; (try dsimp only); (repeat' split) <;> rfl
@[simp] theorem sendCiprcvdata_ub (d : D) : ((sendCiprcvdata d).1).ub = d.ub := by
  unfold sendCiprcvdata; (try dsimp only); (repeat' split) <;> rfl
@[simp] theorem sendCiprcvdata_ext (d : D) : ((sendCiprcvdata d).1).ext = d.ext := by
  unfold sendCiprcvdata; (try dsimp only); (repeat' split) <;> rfl

end sendCiprcvdata

section parseCiprecvdata

@[simp] theorem parseCiprecvdata_ser (p : Platform) (d : D) : ((parseCiprecvdata p d).1).ser = d.ser := by
  unfold parseCiprecvdata; (try dsimp only); split <;> rfl
@[simp] theorem parseCiprecvdata_isOpen (p : Platform) (d : D) : ((parseCiprecvdata p d).1).isOpen = d.isOpen := by
  unfold parseCiprecvdata; (try dsimp only); split <;> rfl
@[simp] theorem parseCiprecvdata_rbuf (p : Platform) (d : D) : ((parseCiprecvdata p d).1).rbuf = d.rbuf := by
  unfold parseCiprecvdata; (try dsimp only); split <;> rfl
@[simp] theorem parseCiprecvdata_wbuf (p : Platform) (d : D) : ((parseCiprecvdata p d).1).wbuf = d.wbuf := by
  unfold parseCiprecvdata; (try dsimp only); split <;> rfl
@[simp] theorem parseCiprecvdata_typ (p : Platform) (d : D) : ((parseCiprecvdata p d).1).typ = d.typ := by
  unfold parseCiprecvdata; (try dsimp only); split <;> rfl
@[simp] theorem parseCiprecvdata_host (p : Platform) (d : D) : ((parseCiprecvdata p d).1).host = d.host := by
  unfold parseCiprecvdata; (try dsimp only); split <;> rfl
@[simp] theorem parseCiprecvdata_port (p : Platform) (d : D) : ((parseCiprecvdata p d).1).port = d.port := by
  unfold parseCiprecvdata; (try dsimp only); split <;> rfl
@[simp] theorem parseCiprecvdata_connectPending (p : Platform) (d : D) : ((parseCiprecvdata p d).1).connectPending = d.connectPending := by
  unfold parseCiprecvdata; (try dsimp only); split <;> rfl
@[simp] theorem parseCiprecvdata_resetPending (p : Platform) (d : D) : ((parseCiprecvdata p d).1).resetPending = d.resetPending := by
  unfold parseCiprecvdata; (try dsimp only); split <;> rfl
@[simp] theorem parseCiprecvdata_dataPending (p : Platform) (d : D) : ((parseCiprecvdata p d).1).dataPending = d.dataPending := by
  unfold parseCiprecvdata; (try dsimp only); split <;> rfl
@[simp] theorem parseCiprecvdata_disconnectPending (p : Platform) (d : D) : ((parseCiprecvdata p d).1).disconnectPending = d.disconnectPending := by
  unfold parseCiprecvdata; (try dsimp only); split <;> rfl
@[simp] theorem parseCiprecvdata_ipConnected (p : Platform) (d : D) : ((parseCiprecvdata p d).1).ipConnected = d.ipConnected := by
  unfold parseCiprecvdata; (try dsimp only); split <;> rfl
@[simp] theorem parseCiprecvdata_serialLocked (p : Platform) (d : D) : ((parseCiprecvdata p d).1).serialLocked = d.serialLocked := by
  unfold parseCiprecvdata; (try dsimp only); split <;> rfl
@[simp] theorem parseCiprecvdata_cs (p : Platform) (d : D) : ((parseCiprecvdata p d).1).cs = d.cs := by
  unfold parseCiprecvdata; (try dsimp only); split <;> rfl
@[simp] theorem parseCiprecvdata_wait (p : Platform) (d : D) : ((parseCiprecvdata p d).1).wait = d.wait := by
  unfold parseCiprecvdata; (try dsimp only); split <;> rfl
@[simp] theorem parseCiprecvdata_line (p : Platform) (d : D) : ((parseCiprecvdata p d).1).line = d.line := by
  unfold parseCiprecvdata; (try dsimp only); split <;> rfl
@[simp] theorem parseCiprecvdata_lbFill (p : Platform) (d : D) : ((parseCiprecvdata p d).1).lbFill = d.lbFill := by
  unfold parseCiprecvdata; (try dsimp only); split <;> rfl
@[simp] theorem parseCiprecvdata_snd (p : Platform) (d : D) : ((parseCiprecvdata p d).1).snd = d.snd := by
  unfold parseCiprecvdata; (try dsimp only); split <;> rfl
@[simp] theorem parseCiprecvdata_rep (p : Platform) (d : D) : ((parseCiprecvdata p d).1).rep = d.rep := by
  unfold parseCiprecvdata; (try dsimp only); split <;> rfl
@[simp] theorem parseCiprecvdata_bytesToWrite (p : Platform) (d : D) : ((parseCiprecvdata p d).1).bytesToWrite = d.bytesToWrite := by
  unfold parseCiprecvdata; (try dsimp only); split <;> rfl
@[simp] theorem parseCiprecvdata_rssi (p : Platform) (d : D) : ((parseCiprecvdata p d).1).rssi = d.rssi := by
  unfold parseCiprecvdata; (try dsimp only); split <;> rfl
@[simp] theorem parseCiprecvdata_delay (p : Platform) (d : D) : ((parseCiprecvdata p d).1).delay = d.delay := by
  unfold parseCiprecvdata; (try dsimp only); split <;> rfl
@[simp] theorem parseCiprecvdata_ub (p : Platform) (d : D) : ((parseCiprecvdata p d).1).ub = d.ub := by
  unfold parseCiprecvdata; (try dsimp only); split <;> rfl
@[simp] theorem parseCiprecvdata_trace (p : Platform) (d : D) : ((parseCiprecvdata p d).1).trace = d.trace := by
  unfold parseCiprecvdata; (try dsimp only); split <;> rfl
@[simp] theorem parseCiprecvdata_ext (p : Platform) (d : D) : ((parseCiprecvdata p d).1).ext = d.ext := by
  unfold parseCiprecvdata; (try dsimp only); split <;> rfl

end parseCiprecvdata

section parseCsq

@[simp] theorem parseCsq_ser (p : Platform) (d : D) : ((parseCsq p d).1).ser = d.ser := by
  unfold parseCsq; (try dsimp only); split <;> rfl
@[simp] theorem parseCsq_isOpen (p : Platform) (d : D) : ((parseCsq p d).1).isOpen = d.isOpen := by
  unfold parseCsq; (try dsimp only); split <;> rfl
@[simp] theorem parseCsq_rbuf (p : Platform) (d : D) : ((parseCsq p d).1).rbuf = d.rbuf := by
  unfold parseCsq; (try dsimp only); split <;> rfl
@[simp] theorem parseCsq_wbuf (p : Platform) (d : D) : ((parseCsq p d).1).wbuf = d.wbuf := by
  unfold parseCsq; (try dsimp only); split <;> rfl
@[simp] theorem parseCsq_typ (p : Platform) (d : D) : ((parseCsq p d).1).typ = d.typ := by
  unfold parseCsq; (try dsimp only); split <;> rfl
@[simp] theorem parseCsq_host (p : Platform) (d : D) : ((parseCsq p d).1).host = d.host := by
  unfold parseCsq; (try dsimp only); split <;> rfl
@[simp] theorem parseCsq_port (p : Platform) (d : D) : ((parseCsq p d).1).port = d.port := by
  unfold parseCsq; (try dsimp only); split <;> rfl
@[simp] theorem parseCsq_connectPending (p : Platform) (d : D) : ((parseCsq p d).1).connectPending = d.connectPending := by
  unfold parseCsq; (try dsimp only); split <;> rfl
@[simp] theorem parseCsq_resetPending (p : Platform) (d : D) : ((parseCsq p d).1).resetPending = d.resetPending := by
  unfold parseCsq; (try dsimp only); split <;> rfl
@[simp] theorem parseCsq_dataPending (p : Platform) (d : D) : ((parseCsq p d).1).dataPending = d.dataPending := by
  unfold parseCsq; (try dsimp only); split <;> rfl
@[simp] theorem parseCsq_disconnectPending (p : Platform) (d : D) : ((parseCsq p d).1).disconnectPending = d.disconnectPending := by
  unfold parseCsq; (try dsimp only); split <;> rfl
@[simp] theorem parseCsq_ipConnected (p : Platform) (d : D) : ((parseCsq p d).1).ipConnected = d.ipConnected := by
  unfold parseCsq; (try dsimp only); split <;> rfl
@[simp] theorem parseCsq_lineRead (p : Platform) (d : D) : ((parseCsq p d).1).lineRead = d.lineRead := by
  unfold parseCsq; (try dsimp only); split <;> rfl
@[simp] theorem parseCsq_serialLocked (p : Platform) (d : D) : ((parseCsq p d).1).serialLocked = d.serialLocked := by
  unfold parseCsq; (try dsimp only); split <;> rfl
@[simp] theorem parseCsq_cs (p : Platform) (d : D) : ((parseCsq p d).1).cs = d.cs := by
  unfold parseCsq; (try dsimp only); split <;> rfl
@[simp] theorem parseCsq_wait (p : Platform) (d : D) : ((parseCsq p d).1).wait = d.wait := by
  unfold parseCsq; (try dsimp only); split <;> rfl
@[simp] theorem parseCsq_line (p : Platform) (d : D) : ((parseCsq p d).1).line = d.line := by
  unfold parseCsq; (try dsimp only); split <;> rfl
@[simp] theorem parseCsq_lbFill (p : Platform) (d : D) : ((parseCsq p d).1).lbFill = d.lbFill := by
  unfold parseCsq; (try dsimp only); split <;> rfl
@[simp] theorem parseCsq_snd (p : Platform) (d : D) : ((parseCsq p d).1).snd = d.snd := by
  unfold parseCsq; (try dsimp only); split <;> rfl
@[simp] theorem parseCsq_rep (p : Platform) (d : D) : ((parseCsq p d).1).rep = d.rep := by
  unfold parseCsq; (try dsimp only); split <;> rfl
@[simp] theorem parseCsq_bytesToWrite (p : Platform) (d : D) : ((parseCsq p d).1).bytesToWrite = d.bytesToWrite := by
  unfold parseCsq; (try dsimp only); split <;> rfl
@[simp] theorem parseCsq_bytesToReceive (p : Platform) (d : D) : ((parseCsq p d).1).bytesToReceive = d.bytesToReceive := by
  unfold parseCsq; (try dsimp only); split <;> rfl
@[simp] theorem parseCsq_bytesToRead (p : Platform) (d : D) : ((parseCsq p d).1).bytesToRead = d.bytesToRead := by
  unfold parseCsq; (try dsimp only); split <;> rfl
@[simp] theorem parseCsq_delay (p : Platform) (d : D) : ((parseCsq p d).1).delay = d.delay := by
  unfold parseCsq; (try dsimp only); split <;> rfl
@[simp] theorem parseCsq_ub (p : Platform) (d : D) : ((parseCsq p d).1).ub = d.ub := by
  unfold parseCsq; (try dsimp only); split <;> rfl
@[simp] theorem parseCsq_trace (p : Platform) (d : D) : ((parseCsq p d).1).trace = d.trace := by
  unfold parseCsq; (try dsimp only); split <;> rfl
@[simp] theorem parseCsq_ext (p : Platform) (d : D) : ((parseCsq p d).1).ext = d.ext := by
  unfold parseCsq; (try dsimp only); split <;> rfl

end parseCsq

section parseMac

@[simp] theorem parseMac_ser (d : D) : ((parseMac d)).ser = d.ser := by
  unfold parseMac; split <;> rfl
@[simp] theorem parseMac_isOpen (d : D) : ((parseMac d)).isOpen = d.isOpen := by
  unfold parseMac; split <;> rfl
@[simp] theorem parseMac_rbuf (d : D) : ((parseMac d)).rbuf = d.rbuf := by
  unfold parseMac; split <;> rfl
@[simp] theorem parseMac_wbuf (d : D) : ((parseMac d)).wbuf = d.wbuf := by
  unfold parseMac; split <;> rfl
@[simp] theorem parseMac_typ (d : D) : ((parseMac d)).typ = d.typ := by
  unfold parseMac; split <;> rfl
@[simp] theorem parseMac_host (d : D) : ((parseMac d)).host = d.host := by
  unfold parseMac; split <;> rfl
@[simp] theorem parseMac_port (d : D) : ((parseMac d)).port = d.port := by
  unfold parseMac; split <;> rfl
@[simp] theorem parseMac_connectPending (d : D) : ((parseMac d)).connectPending = d.connectPending := by
  unfold parseMac; split <;> rfl
@[simp] theorem parseMac_resetPending (d : D) : ((parseMac d)).resetPending = d.resetPending := by
  unfold parseMac; split <;> rfl
@[simp] theorem parseMac_dataPending (d : D) : ((parseMac d)).dataPending = d.dataPending := by
  unfold parseMac; split <;> rfl
@[simp] theorem parseMac_disconnectPending (d : D) : ((parseMac d)).disconnectPending = d.disconnectPending := by
  unfold parseMac; split <;> rfl
@[simp] theorem parseMac_ipConnected (d : D) : ((parseMac d)).ipConnected = d.ipConnected := by
  unfold parseMac; split <;> rfl
@[simp] theorem parseMac_lineRead (d : D) : ((parseMac d)).lineRead = d.lineRead := by
  unfold parseMac; split <;> rfl
@[simp] theorem parseMac_serialLocked (d : D) : ((parseMac d)).serialLocked = d.serialLocked := by
  unfold parseMac; split <;> rfl
@[simp] theorem parseMac_cs (d : D) : ((parseMac d)).cs = d.cs := by
  unfold parseMac; split <;> rfl
@[simp] theorem parseMac_wait (d : D) : ((parseMac d)).wait = d.wait := by
  unfold parseMac; split <;> rfl
@[simp] theorem parseMac_line (d : D) : ((parseMac d)).line = d.line := by
  unfold parseMac; split <;> rfl
@[simp] theorem parseMac_lbFill (d : D) : ((parseMac d)).lbFill = d.lbFill := by
  unfold parseMac; split <;> rfl
@[simp] theorem parseMac_snd (d : D) : ((parseMac d)).snd = d.snd := by
  unfold parseMac; split <;> rfl
@[simp] theorem parseMac_bytesToWrite (d : D) : ((parseMac d)).bytesToWrite = d.bytesToWrite := by
  unfold parseMac; split <;> rfl
@[simp] theorem parseMac_bytesToReceive (d : D) : ((parseMac d)).bytesToReceive = d.bytesToReceive := by
  unfold parseMac; split <;> rfl
@[simp] theorem parseMac_bytesToRead (d : D) : ((parseMac d)).bytesToRead = d.bytesToRead := by
  unfold parseMac; split <;> rfl
@[simp] theorem parseMac_rssi (d : D) : ((parseMac d)).rssi = d.rssi := by
  unfold parseMac; split <;> rfl
@[simp] theorem parseMac_delay (d : D) : ((parseMac d)).delay = d.delay := by
  unfold parseMac; split <;> rfl
@[simp] theorem parseMac_ub (d : D) : ((parseMac d)).ub = d.ub := by
  unfold parseMac; split <;> rfl
@[simp] theorem parseMac_trace (d : D) : ((parseMac d)).trace = d.trace := by
  unfold parseMac; split <;> rfl

end parseMac

@[simp] theorem fillLineBuffer_rep (d : D) : (fillLineBuffer d).1.rep = d.rep := by
  apply SimDev.fillLine_rep_const
  intro m k c x hx
  unfold lineStop at hx
  split at hx
  · exact (Option.some.inj hx).symm
  · simp at hx

end CC1352P7
end Verif
