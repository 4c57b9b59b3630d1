import Verif.Lemmas.Printf
import Verif.Props.Serial

/-!
# Property C97: what `printf` sends in the examples for the STM32
-/

namespace Verif.Props.Printf

open Verif Verif.Printf Verif.Spec.Printf Verif.Props.Serial

/-- The port for messages as the examples create it, with buffers of any content. -/
def port (rmem wmem : List Byte) : Ser := Ser.init rmem wmem []

theorem late_port (rmem wmem : List Byte) (h : wmem ≠ []) : Late (port rmem wmem).tx.ring 0 [] where
  reads := ⟨rfl, List.length_pos_iff.2 h, fun i hi => absurd hi (by simp), rfl⟩
  av := rfl
  le := Nat.zero_le _
  wh := (Nat.zero_mod _).symm

theorem late_length {r : Ring Byte} {d : Nat} {q : List Byte} (h : Late r d q) : q.length = r.bytesAvailable + d := h.av.symm

/-- **C97.** As long as every character finds space, whenever the interrupts come: what was sent, followed by what is
buffered, is what was printed. -/
theorem C97_fits (rmem wmem : List Byte) (hw : wmem ≠ []) (evs : List Ev) (hr : Roomy 0 (port rmem wmem) evs) :
    let s := steps (port rmem wmem) evs
    s.wire ++ buffered s.tx = printed evs ∧ s.tx.ring.oob = false := by
  intro s
  obtain ⟨q, h, hs, e⟩ := late_steps 0 evs (late_port rmem wmem hw) rfl hr
  have hR : Ring.Rep s.tx.ring q := h.rep
  have hb : buffered s.tx = q := by
    rw [buffered]
    have key : ∀ (n : Nat) (b : LineBuf) (l : List Byte), Ring.Rep b.ring l → n ≤ l.length → (b.pullLoop n).2 = l.take n := by
      intro n
      induction n with
      | zero => intro b l _ _; simp [LineBuf.pullLoop]
      | succ n ih =>
        intro b l hb hn
        cases l with
        | nil => simp at hn
        | cons x l =>
          obtain ⟨k1, k2⟩ := Ring.rep_pull hb
          have := ih b.pull.1 l k1 (by simpa using hn)
          show b.ring.pull.2 :: (b.pull.1.pullLoop n).2 = _
          rw [k2, this]; rfl
    have hav : s.tx.ring.bytesAvailable = q.length := hR.av
    unfold LineBuf.pullN
    rw [if_neg (by omega)]
    rw [key _ _ _ hR (by omega), hav, List.take_length]
  exact ⟨by rw [hb]; exact e.trans (by simp [port, Ser.init]), hR.ok⟩

theorem wrap (a n b : Nat) : (a + b) % n = ((a + n) % n + b) % n := by
  rw [Nat.mod_add_mod, show a + n + b = a + b + n by omega, Nat.add_mod_right]

/-- The situation after characters were printed into a full buffer: it looks empty, but the next bytes to be sent are the `d`
bytes `stale`, whatever is printed. -/
def Lagging (s : Ser) (stale : List Byte) : Prop :=
  s.tx.ring.bytesAvailable = 0 ∧ ∀ evs, Roomy stale.length s evs →
    ∃ held, held.length = (steps s evs).tx.ring.bytesAvailable + stale.length ∧
      (steps s evs).wire ++ held = s.wire ++ stale ++ printed evs

/-- The expectation that at worst characters are lost when more is printed than fits is false. Printing `text` while no interrupt comes
(a character takes 87 µs to send, and much less to print), of which `e` characters, less than the buffer holds, do not
fit: the characters that did not fit are sent first; `e` older ones are lost. From then on the output lags by `e`
characters for ever: those that did not fit are sent again, and the last `e` characters printed are held back (as long as no
more is printed than fits; flushing the receive buffer does not help). -/
theorem C97_over (rmem wmem : List Byte) (evs : List Ev) (hr : Roomy 0 (port rmem wmem) evs)
    (text : List Byte) :
    let s := steps (port rmem wmem) evs
    let n := s.writeBufferSize
    let q := (printed evs).drop s.wire.length
    let all := q ++ text
    let v := steps (print s text) (drain n)
    n ≤ all.length → all.length < 2 * n →
    v.wire = s.wire ++ all.drop n ++ (all.take n).drop (all.length - n) ∧ Lagging v (all.drop n) := by
  intro s n q all v h1 h2
  have hw : wmem ≠ [] := by
    intro hw
    have hn : n = wmem.length := by
      have key : ∀ (evs : List Ev) (s : Ser), (steps s evs).tx.ring.size = s.tx.ring.size := by
        intro evs
        induction evs with
        | nil => intro s; rfl
        | cons ev evs ih =>
          intro s
          refine (ih (step s ev)).trans ?_
          cases ev with
          | put c => exact (Ser.frame_sync s).txSize
          | irq h => exact (Ser.frame_transfer s h).txSize
          | flush => exact (Ser.frame_sync s).txSize
      exact key evs _
    rw [hw] at hn
    simp at hn
    omega
  obtain ⟨q', h, hs, e⟩ := late_steps 0 evs (late_port rmem wmem hw) rfl hr
  have hq : q = q' := by
    have e' : s.wire ++ q' = printed evs := e.trans (by simp [port, Ser.init])
    show (printed evs).drop s.wire.length = q'
    rw [← e', List.drop_left]
  have hp : 0 < n := by omega
  have hle : q'.length ≤ n := h.le
  -- the part that fits
  have hfit : ∀ (l : List Byte) (r : Ring Byte) (k : List Byte), Late r 0 k → k.length + l.length ≤ r.size →
      Late (l.foldl Ring.push r) 0 (k ++ l) ∧ (l.foldl Ring.push r).size = r.size := by
    intro l
    induction l with
    | nil => intro r k hk _; exact ⟨by simpa using hk, rfl⟩
    | cons x l ih =>
      intro r k hk hl
      simp only [List.length_cons] at hl
      obtain ⟨a1, a2⟩ := ih (r.push x) (k ++ [x]) (hk.push x (by omega)) (by simp; omega)
      exact ⟨by simpa using a1, a2⟩
  have hal : all.length = q'.length + text.length := by show (q ++ text).length = _; rw [hq]; simp
  have htake : all.take n = q' ++ text.take (n - q'.length) := by
    show (q ++ text).take n = _
    rw [hq, List.take_append, List.take_of_length_le hle]
  have hdrop : all.drop n = text.drop (n - q'.length) := by
    show (q ++ text).drop n = _
    rw [hq, List.drop_append, List.drop_eq_nil_of_le hle, List.nil_append]
  obtain ⟨f1, f2⟩ := hfit (text.take (n - q'.length)) s.tx.ring q' h (by
    show _ ≤ n
    simp; omega)
  rw [← htake] at f1
  have hlen : (all.take n).length = n := by simp; omega
  have hys : (all.drop n).length = all.length - n := by simp
  have hR : Ring.Rep ((text.take (n - q'.length)).foldl Ring.push s.tx.ring) (all.take n) := f1.rep
  -- the part that does not fit
  have hsplit : all.take n = (all.take n).take (all.length - n) ++ (all.take n).drop (all.length - n) := by simp
  have hfull : ((text.take (n - q'.length)).foldl Ring.push s.tx.ring).avail =
      ((text.take (n - q'.length)).foldl Ring.push s.tx.ring).size := by
    rw [hR.av, hlen, f2]; rfl
  have hpr := print_ring text hs
  have ering : (print s text).tx.ring = ((text.take (n - q'.length)).foldl Ring.push s.tx.ring).pushLoop (all.drop n) := by
    rw [hpr.1, ← pushes_full _ _ hfull, hdrop, ← List.foldl_append, List.take_append_drop]
  rw [hsplit] at hR
  obtain ⟨g1, g2⟩ := full_reads hR (by rw [← hsplit, hlen, f2]; rfl) (by rw [f2]; exact hp) (all.drop n) (by simp; omega)
  rw [← ering] at g1 g2
  have pz : (print s text).tx.ring.size = n := by
    rw [ering, (pushLoop_same _ _).2.2, f2]; rfl
  have pa : (print s text).tx.ring.avail = n := by
    rw [ering, (pushLoop_same _ _).2.1, hfull, f2]; rfl
  have prh : (print s text).tx.ring.readHead = ((text.take (n - q'.length)).foldl Ring.push s.tx.ring).readHead := by
    rw [ering, (pushLoop_same _ _).1]
  obtain ⟨d1, d2, d3, d4, d5, d6, d7⟩ := drain_steps n g1 (by simp; omega) pa
  refine ⟨by rw [d2, hpr.2.1]; simp; rfl, d4, ?_⟩
  have hlate : Late v.tx.ring (all.drop n).length (all.drop n) := by
    refine ⟨d1, ?_, ?_, ?_⟩
    · show v.tx.ring.avail + _ = _
      rw [d4]; simp
    · rw [d6, pz, hys]; omega
    · rw [d5, g2, d7, d6, pz, f2, prh]
      exact wrap _ n _
  intro evs' hr'
  obtain ⟨held, l1, l2, l3⟩ := late_steps _ evs' hlate (d3.trans hpr.2.2) hr'
  exact ⟨held, late_length l1, l3⟩

/-! Witnesses: a buffer of four bytes; `ABCDEF` is printed, then `x`, `y` and `z`, each of them sent before the next. -/

example : Roomy 0 (port [0] [0, 0, 0, 0]) [.put 33, .irq ⟨none, true⟩] := by decide

example : let s := steps (port [0] [0, 0, 0, 0]) [.put 33, .irq ⟨none, true⟩]
    let v := steps (print s [65, 66, 67, 68, 69, 70]) (drain 4)
    let evs := [.put 120, .irq ⟨none, true⟩, .put 121, .irq ⟨none, true⟩, .flush, .put 122, .irq ⟨none, true⟩]
    v.wire = [33, 69, 70, 67, 68] ∧ Roomy 2 v evs ∧
    (steps v evs).wire = [33, 69, 70, 67, 68, 69, 70, 120] := by decide

end Verif.Props.Printf
