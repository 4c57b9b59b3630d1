import Verif.Lemmas.Cable
import Verif.Lemmas.Net

/-! What all drivers have in common at a cable. -/

namespace Verif
namespace Dev

variable {S R X : Type} {c : Conf} {E : X → Prop} {t0 : List Ev} {T : List (List Byte)} {q : St S R} {d : Dev S R X} {n : Nat} {b : List Byte}

/-- The transmit buffer is emptied. -/
theorem Talk.drained (h : Talk c E t0 T q d) (hn : c.tx ≤ n) :
    Talk c E t0 T q ({ d with ser := d.ser.transfers (List.replicate n ⟨none, true⟩) } : Dev S R X) ∧
      (d.ser.transfers (List.replicate n ⟨none, true⟩)).txFree = c.tx := by
  have h1 := (h.calm.arrived (v := []) hn (Nat.zero_le _))
  obtain ⟨⟨a1, a2, a3, a4, a5, a6, a7⟩, b1, b2, b3, b4, b5, b6, b7, b8, b9, b10, b11, b12, b13, b14⟩ := h
  exact ⟨⟨⟨a1, a2, a3, a4, ⟨a5.len, a5.fill, a5.oob⟩, a6, h1.1⟩, b1, b2, b3, b4, b5, b6, b7, b8, b9, b10, b11, b12, b13, b14⟩, h1.2⟩

theorem Take.drained (h : Take c E t0 T q b d) (hn : c.tx ≤ n) (hb : b.length ≤ c.rx) :
    Take c E t0 T q b ({ d with ser := d.ser.transfers (List.replicate n ⟨none, true⟩) } : Dev S R X) := by
  have := h.hearing hn [] (by simpa using hb)
  rw [List.append_nil] at this
  exact this

theorem more_common_write (d : Dev S R X) (y bs : List Byte) : (d.more y).common (.write bs) = (d.common (.write bs)).more y := by
  show ((d.more y).write bs).1.log (.apiWrite (bs.take ((d.more y).write bs).2)) = ((d.write bs).1.log (.apiWrite (bs.take (d.write bs).2))).more y
  unfold Dev.write
  rw [show (d.more y).cs = d.cs from rfl]
  split <;> rfl

theorem fits {s : Ser} {rq : List Byte} {rx : Nat} (h : Ser.Still s rq rx) : rq.length ≤ rx := by
  have := h.q.rx
  have h2 := h.rxs
  exact h2 ▸ this.ring.le

/-- Nothing is in the transmit buffer. -/
theorem Take.still (h : Take c E t0 T q b d) : Dev.hearing d n [] = d := by
  have h0 : d.ser.tx.ring.bytesAvailable = 0 := by
    have h1 := h.free
    unfold Ser.txFree at h1
    rw [h.ser.txs] at h1
    have := h.ser.bnd.av
    rw [h.ser.txs] at this
    have := h.ser.pos
    show d.ser.tx.ring.avail = 0
    omega
  show ({ d with ser := d.ser.transfers _ } : Dev S R X) = d
  rw [Ser.drain_idle h0]

/-- Everything that arrived waits. -/
theorem Talk.waits (h : Talk c E t0 T q d) {y : List Byte} (hy : y.length ≤ c.rx) :
    (d.more y).serAvail = y.length ∧ (d.more y).askAvail = d.more y ∧ d.ser.sched = [] ∧ Ser.Still d.ser [] c.rx := by
  have h1 := h.calm.ser.still
  have h2 := (h1.arrive y (by simpa using hy)).2.bytesAvailable.1
  refine ⟨h2, ?_, h1.sched, h1⟩
  show ({ d with ser := (d.ser.more y).bytesAvailable.1 } : Dev S R X) = { d with ser := d.ser.more y }
  rw [Ser.more_askAvail h1.sched, h.calm.ser.bytesAvailable]

end Dev
end Verif
