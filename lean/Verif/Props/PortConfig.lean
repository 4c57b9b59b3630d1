import Verif.Model.PortConfig

/-!
# C53, C60: configuration, opening and closing of serial ports
-/

namespace Verif.Props.PortConfig

open Verif.PortConfig

/-! ## C53 -/

/-- Baud rates of the Linux port. -/
def linuxRates : List Nat :=
  [0, 50, 75, 110, 134, 150, 200, 300, 600, 1200, 1800, 2400, 9600, 19200, 38400, 57600, 115200,
   230400, 460800, 576000, 921600, 1000000, 1152000, 1500000, 2000000, 2500000, 3000000, 3500000,
   4000000]

theorem unixSpeed_spec (n : Nat) : unixSpeed n = if n ∈ linuxRates then some n else none := by
  unfold unixSpeed
  split
  all_goals try rfl
  rename_i h0 h1 h2 h3 h4 h5 h6 h7 h8 h9 h10 h11 h12 h13 h14 h15 h16 h17 h18 h19 h20 h21 h22 h23 h24
    h25 h26 h27 h28
  rw [if_neg]
  simp only [linuxRates, List.mem_cons, List.not_mem_nil, or_false, not_or]
  exact ⟨h0, h1, h2, h3, h4, h5, h6, h7, h8, h9, h10, h11, h12, h13, h14, h15, h16, h17, h18, h19, h20,
    h21, h22, h23, h24, h25, h26, h27, h28⟩

theorem unixBits_spec (n : Nat) : unixBits n = if 5 ≤ n ∧ n ≤ 8 then some n else none := by
  unfold unixBits
  split
  all_goals try rfl
  rename_i h5 h6 h7 h8
  have h5 : n ≠ 5 := h5
  have h6 : n ≠ 6 := h6
  have h7 : n ≠ 7 := h7
  have h8 : n ≠ 8 := h8
  rw [if_neg (by omega)]

/-- Linux: accepted iff the baud rate and the number of data bits are supported, and then exactly
these are configured. -/
theorem C53_linux (c : Conf) (baud : UInt32) (bits : UInt8) :
    ((unixSet c baud bits).2 = true ↔
      baud.toNat ∈ linuxRates ∧ 5 ≤ bits.toNat ∧ bits.toNat ≤ 8) ∧
    ((unixSet c baud bits).2 = true →
      (unixSet c baud bits).1 = { speed := baud.toNat, bits := bits.toNat }) := by
  unfold unixSet
  rw [unixSpeed_spec, unixBits_spec]
  by_cases h1 : baud.toNat ∈ linuxRates
  · by_cases h2 : 5 ≤ bits.toNat ∧ bits.toNat ≤ 8
    · simp [h1, h2]
    · simp only [h1, h2, if_true, if_false]; simp
  · simp [h1]

/-- STM32: the same, with baud rates from 50 to 4500000 and 8 or 9 data bits. -/
theorem C53_stm32 (c : Conf) (baud : UInt32) (bits : UInt8) :
    ((stm32Set c baud bits).2 = true ↔
      50 ≤ baud.toNat ∧ baud.toNat ≤ 4500000 ∧ (bits.toNat = 8 ∨ bits.toNat = 9)) ∧
    ((stm32Set c baud bits).2 = true →
      (stm32Set c baud bits).1 = { speed := baud.toNat, bits := bits.toNat }) := by
  unfold stm32Set
  have hr : (baud < 50 ∨ baud > 4500000) ↔ ¬ (50 ≤ baud.toNat ∧ baud.toNat ≤ 4500000) := by
    rw [UInt32.lt_iff_toNat_lt, gt_iff_lt, UInt32.lt_iff_toNat_lt]
    show (baud.toNat < 50 ∨ 4500000 < baud.toNat) ↔ _
    omega
  by_cases h1 : 50 ≤ baud.toNat ∧ baud.toNat ≤ 4500000
  · rw [if_neg (by rw [hr]; simpa using h1)]
    dsimp only
    split
    · rename_i h; simp [h1, h]
    · rename_i h; simp [h1, h]
    · rename_i h8 h9
      constructor
      · constructor
        · intro h; cases h
        · rintro ⟨_, _, h | h⟩
          · exact absurd h h8
          · exact absurd h h9
      · intro h; cases h
  · rw [if_pos (hr.mpr h1)]
    constructor
    · constructor
      · intro h; cases h
      · rintro ⟨a, b, _⟩; exact absurd ⟨a, b⟩ h1
    · intro h; cases h

/-- An unsupported baud rate changes nothing. -/
theorem C53_rate_rejected (c : Conf) (baud : UInt32) (bits : UInt8) :
    (baud.toNat ∉ linuxRates → unixSet c baud bits = (c, false)) ∧
    (¬ (50 ≤ baud.toNat ∧ baud.toNat ≤ 4500000) → stm32Set c baud bits = (c, false)) := by
  constructor
  · intro h; unfold unixSet; rw [unixSpeed_spec, if_neg h]
  · intro h
    unfold stm32Set
    rw [if_pos]
    rw [UInt32.lt_iff_toNat_lt, gt_iff_lt, UInt32.lt_iff_toNat_lt]
    show baud.toNat < 50 ∨ 4500000 < baud.toNat
    omega

/-- The expectation that a rejected call changes nothing is false: with a supported baud rate and an
unsupported number of data bits the call fails, but the baud rate is changed. -/
theorem C53_half_rejected (c : Conf) (baud : UInt32) (bits : UInt8) :
    (baud.toNat ∈ linuxRates → ¬ (5 ≤ bits.toNat ∧ bits.toNat ≤ 8) →
      unixSet c baud bits = ({ c with speed := baud.toNat }, false)) ∧
    (50 ≤ baud.toNat → baud.toNat ≤ 4500000 → bits.toNat ≠ 8 → bits.toNat ≠ 9 →
      stm32Set c baud bits = ({ c with speed := baud.toNat }, false)) := by
  constructor
  · intro h1 h2
    unfold unixSet
    rw [unixSpeed_spec, if_pos h1]
    dsimp only
    rw [unixBits_spec, if_neg h2]
  · intro h1 h2 h8 h9
    unfold stm32Set
    rw [if_neg (by
      rw [UInt32.lt_iff_toNat_lt, gt_iff_lt, UInt32.lt_iff_toNat_lt]
      show ¬ (baud.toNat < 50 ∨ 4500000 < baud.toNat)
      omega)]
    dsimp only
    split
    · exact absurd ‹_› h8
    · exact absurd ‹_› h9
    · rfl

example : (unixSet Conf.init 9600 7).2 = true ∧
    unixSet Conf.init 9600 9 = ({ speed := 9600, bits := 8 }, false) ∧
    (unixSet Conf.init 4800 8).2 = false ∧
    stm32Set Conf.init 4800 9 = ({ speed := 4800, bits := 9 }, true) ∧
    stm32Set Conf.init 4800 7 = ({ speed := 4800, bits := 8 }, false) := by decide

/-! ## C60: the Linux port and its file descriptor -/

/-- Outcomes in which `open()` cleans up after itself. -/
def Clean : PortOp → Prop
  | .poll o => o = .noFile ∨ o = .notTty ∨ o = .success
  | _ => True

/-- At most the descriptor of the object is open; it is open iff the port is. -/
def Tidy (p : Port) : Prop :=
  (p.isOpen = true → ∃ f, p.fd = some f ∧ p.fds = [f]) ∧ (p.isOpen = false → p.fd = none ∧ p.fds = [])

theorem tidy_step {p : Port} (h : Tidy p) (op : PortOp) (hc : Clean op) : Tidy (p.step op) := by
  cases op with
  | set b n => exact h
  | close =>
    cases ho : p.isOpen with
    | true =>
      obtain ⟨f, h1, h2⟩ := h.1 ho
      refine ⟨by simp [Port.step, Port.close], fun _ => ⟨rfl, ?_⟩⟩
      show (match p.fd with | none => p.fds | some f => p.fds.erase f) = []
      rw [h1, h2]; simp
    | false =>
      obtain ⟨h1, h2⟩ := h.2 ho
      refine ⟨by simp [Port.step, Port.close], fun _ => ⟨rfl, ?_⟩⟩
      show (match p.fd with | none => p.fds | some f => p.fds.erase f) = []
      rw [h1]; exact h2
  | poll o =>
    unfold Port.step
    dsimp only
    cases ho : p.isOpen with
    | true => exact h
    | false =>
      obtain ⟨h1, h2⟩ := h.2 ho
      rcases hc with hc | hc | hc <;> subst hc
      · exact ⟨fun hx => absurd hx (by simp [Port.open, ho]), fun _ => ⟨rfl, h2⟩⟩
      · refine ⟨fun hx => absurd hx (by simp [Port.open, Port.close]), fun _ => ⟨rfl, ?_⟩⟩
        show (p.next :: p.fds).erase p.next = []
        rw [h2]; simp
      · refine ⟨fun _ => ⟨p.next, rfl, ?_⟩, fun hx => absurd hx (by simp [Port.open])⟩
        show p.next :: p.fds = [p.next]
        rw [h2]

theorem tidy_exec (ops : List PortOp) {p : Port} (h : Tidy p) (hc : ∀ op ∈ ops, Clean op) :
    Tidy (ops.foldl Port.step p) := by
  induction ops generalizing p with
  | nil => exact h
  | cons op ops ih =>
    exact ih (tidy_step h op (hc op (by simp))) (fun o ho => hc o (by simp [ho]))

/-- As long as the terminal can be configured, a driver polling the port never holds more than one
descriptor; it holds one iff the port is open. -/
theorem C60_descriptors (ops : List PortOp) (hc : ∀ op ∈ ops, Clean op) :
    (Port.exec ops).fds.length = if (Port.exec ops).isOpen then 1 else 0 := by
  have h : Tidy (Port.exec ops) :=
    tidy_exec ops ⟨fun h => absurd h (by simp [Port.init]), fun _ => ⟨rfl, rfl⟩⟩ hc
  cases ho : (Port.exec ops).isOpen with
  | true => obtain ⟨f, _, h2⟩ := h.1 ho; rw [h2]; rfl
  | false => rw [(h.2 ho).2]; rfl

/-- A successful `open()` applies the configuration set last. -/
theorem C60_configured (p : Port) (baud : UInt32) (bits : UInt8)
    (h : (unixSet p.conf baud bits).2 = true) (hc : p.isOpen = false) :
    ((p.step (.set baud bits)).step (.poll .success)).isOpen = true ∧
    ((p.step (.set baud bits)).step (.poll .success)).line =
      some { speed := baud.toNat, bits := bits.toNat } := by
  have e := (C53_linux p.conf baud bits).2 h
  have ho : (p.step (.set baud bits)).isOpen = false := hc
  unfold Port.step
  dsimp only
  rw [hc]
  refine ⟨rfl, ?_⟩
  show some (unixSet p.conf baud bits).1 = _
  rw [e]

/-- Configuring an open port has no effect on the line until it is closed and opened again. -/
theorem C60_open_unaffected (p : Port) (baud : UInt32) (bits : UInt8) (o : Outcome)
    (ho : p.isOpen = true) :
    ((p.step (.set baud bits)).step (.poll o)).line = p.line := by
  unfold Port.step
  dsimp only
  rw [ho]
  rfl

/-- The expectation that a failed `open()` leaves nothing behind is false: if the terminal cannot be
configured, every call of `run()` of a driver leaves one more descriptor open. -/
theorem C60_leak (o : Outcome) (ho : o = .getFails ∨ o = .speedFails ∨ o = .setFails) (n : Nat) :
    (Port.exec (List.replicate n (.poll o))).fds.length = n ∧
    (Port.exec (List.replicate n (.poll o))).isOpen = false := by
  unfold Port.exec
  suffices h : ∀ p : Port, p.isOpen = false →
      ((List.replicate n (.poll o)).foldl Port.step p).fds.length = p.fds.length + n ∧
      ((List.replicate n (.poll o)).foldl Port.step p).isOpen = false by
    have := h Port.init rfl
    simpa [Port.init] using this
  induction n with
  | zero => intro p h; exact ⟨rfl, h⟩
  | succ n ih =>
    intro p h
    have e : p.step (.poll o) =
        { p with fd := some p.next, fds := p.next :: p.fds, next := p.next + 1 } := by
      unfold Port.step Port.open
      dsimp only
      rw [h]
      rcases ho with ho | ho | ho <;> subst ho <;> rfl
    rw [List.replicate_succ, List.foldl_cons]
    have := ih (p.step (.poll o)) (by rw [e]; exact h)
    refine ⟨?_, this.2⟩
    rw [this.1, e]
    simp; omega

example : (Port.exec [.poll .noFile, .poll .notTty, .set 9600 8, .poll .success]).fds = [1] ∧
    (Port.exec [.poll .noFile, .poll .notTty, .set 9600 8, .poll .success]).line =
      some { speed := 9600, bits := 8 } := by decide

end Verif.Props.PortConfig
