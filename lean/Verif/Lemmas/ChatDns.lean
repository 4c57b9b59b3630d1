import Verif.Lemmas.Chat
import Verif.Lemmas.Receiving
import Verif.Props.Parse

/-! The answer of the name server in a dialogue. -/

namespace Verif

open Dev Spec

namespace SimDev

variable {S R : Type} {c : Conf} {apn addr : Option (List Byte)} {t0 : List Ev} {T : List (List Byte)} {q : St S R}
  {g : SimDev S R} {l a : List Byte}

theorem parseDnsReply_keeps {d : SimDev S R} (h : d.parseDnsReply.2 = true) :
    d.parseDnsReply.1.resetPending = d.resetPending ∧ d.parseDnsReply.1.ext.id = d.ext.id ∧ d.parseDnsReply.1.ext.apn = d.ext.apn := by
  revert h
  unfold SimDev.parseDnsReply
  dsimp only
  (repeat' split) <;> simp

theorem parseDnsReply_maxRx (d : SimDev S R) : (parseDnsReply d).1.ext.maxRx = d.ext.maxRx := by
  unfold parseDnsReply
  split
  · dsimp only; split <;> rfl
  · split <;> rfl

/-- The answer of the name server is taken; then the reply state is `r`. -/
theorem dns_heard (h : Talk (c.mid []) (ChatExt apn addr) t0 T q g) (hl : LineDone g l) (hi : IsLine l) (hd : dnsLine a l)
    (ha : a.length ≤ 15) (r : R) :
    b!"+CDNSGIP: 1,\"" <+: l ∧ (parseDnsReply g).2 = true ∧
    Talk (c.mid []) (ChatExt apn (some a)) t0 T { q with rep := r } ({ (parseDnsReply g).1 with rep := r } : SimDev S R) := by
  obtain ⟨name, tail, e1, e2, e3, e4⟩ := hd
  obtain ⟨body, hb1, hb2, hb3, hb4⟩ := hi.text
  have hz : (0 : Byte) ∉ l := by rw [hb1]; simp [hb4, nl]
  have hz1 : (0 : Byte) ∉ name ∧ (0 : Byte) ∉ a ∧ (0 : Byte) ∉ tail := by rw [e1] at hz; simp at hz; simp [hz]
  have hpre : b!"+CDNSGIP: 1,\"" <+: l := by rw [e1]; simp only [List.append_assoc]; exact List.prefix_append _ _
  obtain ⟨m, hcells⟩ := hl.cells
  rw [e1] at hcells
  obtain ⟨d1, d2, d3, d4, d5⟩ := Props.Parse.C42_dns g name a tail m hcells ⟨e2, hz1.1⟩ ⟨e3, hz1.2.1⟩ ⟨e4, hz1.2.2⟩ h.ext.ip ha
  obtain ⟨k1, k2, k3⟩ := parseDnsReply_keeps d1
  have hlo := (eff_parseDnsReply (x := fun _ _ => True) (st := false) (.refl g) hl.fill).lineOk h.calm.line
  refine ⟨hpre, d1, ⟨⟨?_, ?_, ?_, ?_, ⟨hlo.len, hlo.fill, hlo.oob⟩, ?_, ?_⟩, ?_, ?_, ?_, ?_, ?_, ?_, ?_, ?_, ?_, ?_, ?_, ?_, ?_, ?_⟩⟩
  · exact (parseDnsReply_isOpen g).trans h.calm.isOpen
  · exact (parseDnsReply_serialLocked g).trans h.calm.lock
  · exact k1.trans h.calm.reset
  · exact (parseDnsReply_lineRead g).trans h.calm.lineRead
  · exact ⟨(parseDnsReply_lbFill g).trans hl.fill, rfl⟩
  · show Ser.Calm (parseDnsReply g).1.ser _ _ _
    rw [parseDnsReply_ser]; exact h.calm.ser
  · show Told _ _ _ _ (parseDnsReply g).1.trace
    rw [parseDnsReply_trace]; exact h.told
  · show (⟨(parseDnsReply g).1.snd, r, (parseDnsReply g).1.wait, (parseDnsReply g).1.cs, (parseDnsReply g).1.disconnectPending,
      (parseDnsReply g).1.connectPending, decide ((parseDnsReply g).1.rssi = int16Max)⟩ : St S R) = _
    simp [d5, h.snd, h.wait, h.cs, h.disc, h.conn, h.ask]
  · exact (parseDnsReply_host g).trans h.host
  · exact (parseDnsReply_port g).trans h.port
  · exact (parseDnsReply_typ g).trans h.typ
  · exact (parseDnsReply_dataPending g).trans h.data
  · show Ring.Rep (parseDnsReply g).1.wbuf _
    rw [parseDnsReply_wbuf]; exact h.wbuf
  · show (parseDnsReply g).1.wbuf.size = _
    rw [parseDnsReply_wbuf]; exact h.wcap
  · show Ring.Rep (parseDnsReply g).1.rbuf _
    rw [parseDnsReply_rbuf]; exact h.rbuf
  · show (parseDnsReply g).1.rbuf.size = _
    rw [parseDnsReply_rbuf]; exact h.rcap
  · exact (parseDnsReply_bytesToReceive g).trans h.rcv
  · exact (parseDnsReply_bytesToRead g).trans h.rd
  · exact (parseDnsReply_bytesToWrite g).trans h.bw
  · refine ⟨k3.trans h.ext.apn, ?_, ?_, ?_, fun b hb => by cases hb; exact d3⟩
    · show (parseDnsReply g).1.ext.ip.cells.length = 16
      rw [d2]
      have := h.ext.ip
      simp; omega
    · show (parseDnsReply g).1.ext.id.get 1 = 0 ∨ (parseDnsReply g).1.ext.id.get 0 ≠ 0
      rw [k2]; exact h.ext.id
    · show 0 < (parseDnsReply g).1.ext.maxRx
      rw [parseDnsReply_maxRx]; exact h.ext.max

end SimDev
end Verif
