import Verif.Lemmas.EventLoop
import Verif.Spec.EventSession

/-!
# C89: the program examples/linux/eventloop.cpp (and examples/stm32f1/eventloop.cpp) from its first instruction

Any modem or none, any behaviour of the serial port.
-/

namespace Verif.Props.EventLoop

open ModemDetect Client Verif.EventLoop Spec.Client Spec.EventLoop

/-- **C89**, rules: after any number of turns of the loop the program has kept the rules. -/
theorem C89_rules (p : Platform) {b : Mems} (hl : b.line.length = lineMax + 1) (rmem wmem : List Byte) (passes : List (List DOp))
    (hp : ∀ ops ∈ passes, Pass ops) : Kept (loop p b (ModemDetect.init (Ser.init rmem wmem [])) passes) := by
  have h := inv_loop (p := p) hl rmem wmem hp
  generalize loop p b (ModemDetect.init (Ser.init rmem wmem [])) passes = s at h
  have hw : s.connected = true ↔ Call.write true ∈ s.w.log := by
    rcases h.holds.phase with ⟨_, hc, _, hlg, _⟩ | ⟨_, hc, _, hlg, _, _⟩ | ⟨_, hc, _, pieces, hlg, _⟩ <;> rw [hc, hlg]
    · simp
    · simp [five]
    · simp [opening]
  refine ⟨?_, h.holds.shown, h.holds.steady.inside, h.holds.steady.reads, h.holds.null, fun i n he => ?_, fun he hm => h.goes he (hw.2 hm)⟩
  · rcases h.holds.phase with ⟨_, _, _, hlg, _⟩ | ⟨_, _, _, hlg, _, _⟩ | ⟨_, _, _, pieces, hlg, _⟩
    · exact ⟨[], by rw [hlg]; exact ⟨_, rfl⟩⟩
    · exact ⟨[], by rw [hlg]; exact ⟨_, rfl⟩⟩
    · exact ⟨pieces, by rw [hlg]; exact List.prefix_rfl⟩
  · have := h.ended i n he
    exact ⟨this.1, hw.1 this.2.1⟩

/-- The bytes waiting in the driver. -/
def waiting (m : MD) : Nat := m.modem.elim 0 Verif.Program.avail

/-- **C89**, lost: when the loop ends, the bytes that waited in the driver are lost but for 40; as many as that every turn takes. -/
theorem C89_left (p : Platform) {b : Mems} (hl : b.line.length = lineMax + 1) (rmem wmem : List Byte) (passes : List (List DOp))
    (hp : ∀ ops ∈ passes, Pass ops) (ops : List DOp) (ho : Pass ops)
    (hr : (loop p b (ModemDetect.init (Ser.init rmem wmem [])) passes).ended = none) :
    let s := loop p b (ModemDetect.init (Ser.init rmem wmem [])) passes
    let t := loop p b (ModemDetect.init (Ser.init rmem wmem [])) (passes ++ [ops])
    waiting t.w.dev = waiting (execD p s.w.dev ops) - 40 ∧ ∀ i n, t.ended = some (i, n) → n = waiting t.w.dev := by
  intro s t
  have h := inv_loop (p := p) hl rmem wmem hp
  have ht : t = turn p b s ops := by simp [t, s, loop, List.foldl_append]
  refine ⟨by rw [ht]; exact turn_left hl h hr ho, fun i n he => ?_⟩
  rw [ht] at he ⊢
  exact ((h.turn hl ho).ended i n he).2.2

/-- **C89**, complete: if never more than 40 bytes are waiting when the loop looks, it ends with nothing left. -/
theorem C89_complete (p : Platform) {b : Mems} (hl : b.line.length = lineMax + 1) (rmem wmem : List Byte) (passes : List (List DOp))
    (hp : ∀ ops ∈ passes, Pass ops)
    (hw : ∀ pre ops, pre ++ [ops] <+: passes →
      waiting (execD p (loop p b (ModemDetect.init (Ser.init rmem wmem [])) pre).w.dev ops) ≤ 40) (i : Bool) (n : Nat)
    (he : (loop p b (ModemDetect.init (Ser.init rmem wmem [])) passes).ended = some (i, n)) : n = 0 := by
  have key : ∀ k, k ≤ passes.length → ∀ i n, (loop p b (ModemDetect.init (Ser.init rmem wmem [])) (passes.take k)).ended = some (i, n) → n = 0 := by
    intro k
    induction k with
    | zero => intro _ i n h; cases h
    | succ k ih =>
      intro hk i n h
      have hlt : k < passes.length := hk
      have ht : passes.take (k + 1) = passes.take k ++ [passes[k]] := by simp
      cases hs : (loop p b (ModemDetect.init (Ser.init rmem wmem [])) (passes.take k)).ended with
      | some x =>
        have e : loop p b (ModemDetect.init (Ser.init rmem wmem [])) (passes.take (k + 1)) =
            loop p b (ModemDetect.init (Ser.init rmem wmem [])) (passes.take k) := by
          rw [ht]
          have : ∀ (s : Loop), s.ended = some x → turn p b s passes[k] = s := by
            intro s h; unfold turn; rw [h]; rfl
          rw [loop, List.foldl_append]
          exact this _ hs
        rw [e] at h
        exact ih (by omega) i n h
      | none =>
        have hl' := C89_left p hl rmem wmem (passes.take k) (fun o ho => hp o (List.mem_of_mem_take ho)) passes[k]
          (hp _ (List.getElem_mem hlt)) hs
        simp only at hl'
        rw [ht] at h
        have h1 := hl'.2 i n h
        have h2 := hw (passes.take k) passes[k] (by rw [← ht]; exact List.take_prefix _ _)
        rw [h1, hl'.1]
        omega
  exact key passes.length (Nat.le_refl _) i n (by rw [List.take_length]; exact he)

/-- **C89**, scheduler: on Linux, with the scheduler and its two tasks, whatever the clock shows: every second turn a byte is moved in each
direction, between these the detector is run if it is due. So what is said of the loop holds of the program, and the scheduler does nothing
undefined. -/
theorem C89_scheduler (p : Platform) (b : Mems) (rmem wmem : List Byte) (junk : Nat) (feed : Nat → Hw) (opens : Nat → Bool)
    (ticks : List Nat) :
    (program p b rmem wmem junk feed opens ticks).ub = false ∧ ∃ passes, passes.length = ticks.length ∧ Turns feed opens passes ∧
      (program p b rmem wmem junk feed opens ticks).world.loop = loop p b (ModemDetect.init (Ser.init rmem wmem [])) passes :=
  have h := program_loop (p := p) (b := b) rmem wmem junk feed opens ticks
  ⟨h.1.ub, h.2⟩

/-- **C89**, Linux: the program keeps the rules. -/
theorem C89_linux (p : Platform) {b : Mems} (hl : b.line.length = lineMax + 1) (rmem wmem : List Byte) (junk : Nat) (feed : Nat → Hw)
    (opens : Nat → Bool) (ticks : List Nat) : Kept (program p b rmem wmem junk feed opens ticks).world.loop := by
  obtain ⟨_, passes, _, ht, e⟩ := C89_scheduler p b rmem wmem junk feed opens ticks
  rw [e]
  exact C89_rules p hl rmem wmem passes (turns_pass ht)

/-- Non-vacuous: a session on Linux, byte by byte, the clock passing its largest value in between. -/
example :
    let s := (program Sess.arm mems (List.replicate 300 0) (List.replicate 128 0) 7 speak (fun _ => true)
      ((List.range 500).map fun n => (4294965000 + 10 * n) % 4294967296)).world.loop
    s.w.log = opening ++ [.read b!"abc"] ∧ s.w.shown = b!"abc" ∧ s.ended = some (true, 0) := by
  decide +kernel

/-- The two ports of the sessions. -/
def fresh : MD := ModemDetect.init (Ser.init (List.replicate 300 0) (List.replicate 128 0) [])

/-- **C89**, cut short. This expectation is false here: that the whole answer is printed. The server sends 200 bytes and closes the
connection. The driver hands them over, 160 are printed, then the loop ends with 40 bytes in the driver. -/
theorem C89_cut :
    let s := loop Sess.arm mems fresh ((before b!"200" ++ after b!"200" (List.replicate 200 120)).map hear)
    s.w.log = opening ++ List.replicate 4 (.read (List.replicate 40 120)) ∧ s.w.shown = List.replicate 160 120 ∧
      s.ended = some (true, 40) ∧ waiting s.w.dev = 40 := by
  decide +kernel

theorem hear_pass (bs : List Byte) : Pass (hear bs) := by
  refine ⟨fun op h => ?_, by simp [hear]⟩
  simp only [hear, List.mem_cons, List.not_mem_nil, or_false] at h
  rcases h with h | h
  · exact .inl ⟨_, h⟩
  · exact .inr (.inr ⟨_, h⟩)

/-- Non-vacuous: the turns of the session are such turns; an answer of three bytes is printed completely. -/
example : (∀ n data, ∀ ops ∈ (before n ++ after n data).map hear, Pass ops) ∧ mems.line.length = lineMax + 1 ∧
    let s := loop Sess.arm mems fresh ((before b!"3" ++ after b!"3" b!"abc").map hear)
    s.w.log = opening ++ [.read b!"abc"] ∧ s.ended = some (true, 0) := by
  refine ⟨fun n data ops h => ?_, rfl, by decide +kernel⟩
  obtain ⟨bs, _, rfl⟩ := List.mem_map.mp h
  exact hear_pass bs

end Verif.Props.EventLoop
