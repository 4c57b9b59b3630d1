import Verif.Lemmas.TurnSim7x00
import Verif.Lemmas.TurnSim800
import Verif.Lemmas.TurnEspressif
import Verif.Lemmas.TurnCC1352P7
import Verif.Lemmas.PaySim800
import Verif.Lemmas.PayCC1352P7

/-! At most one transmission per call of `run()`, in every state. -/

namespace Verif

open Dev Spec

variable {S R X : Type}

/-- Number of transmissions in a list of events. -/
def sends (es : List Ev) : Nat := (es.filter fun e => (sent e).isSome).length

/-- A command. -/
def isCmd : Ev → Bool
  | .cmd _ _ => true
  | _ => false

/-- Parts of a command come with the command. -/
def argsBelong (es : List Ev) : Bool := !es.any isArg || es.any isCmd

/-- From `d` to `e` at most `n` transmissions. -/
def Adds (n : Nat) (d e : Dev S R X) : Prop :=
  ∃ new, e.trace = d.trace ++ new ∧ sends new ≤ n ∧ argsBelong new = true

theorem Adds.le {n : Nat} {d e : Dev S R X} (h : Adds n d e) : ∃ new, e.trace = d.trace ++ new ∧ sends new ≤ n := by
  obtain ⟨new, h1, h2, _⟩ := h
  exact ⟨new, h1, h2⟩

theorem Adds.refl (n : Nat) (d : Dev S R X) : Adds n d d := ⟨[], by simp, by simp [sends], rfl⟩

theorem Adds.same {n : Nat} {d e : Dev S R X} (h : e.trace = d.trace) : Adds n d e :=
  ⟨[], by simp [h], by simp [sends], rfl⟩

theorem Adds.trans {n m : Nat} {a b c : Dev S R X} (h : Adds n a b) (h' : Adds m b c) :
    Adds (n + m) a c := by
  obtain ⟨x, h1, h2, h5⟩ := h
  obtain ⟨y, h3, h4, h6⟩ := h'
  refine ⟨x ++ y, by rw [h3, h1, List.append_assoc], ?_, ?_⟩
  · unfold sends at *
    rw [List.filter_append, List.length_append]
    omega
  · unfold argsBelong at *
    rw [List.any_append, List.any_append]
    revert h5 h6
    cases x.any isArg <;> cases x.any isCmd <;> cases y.any isArg <;> cases y.any isCmd <;> simp

theorem Adds.mono {n m : Nat} {a b : Dev S R X} (h : Adds n a b) (hm : n ≤ m) : Adds m a b := by
  obtain ⟨x, h1, h2, h3⟩ := h
  exact ⟨x, h1, by omega, h3⟩

theorem sends_args {rest : List Ev} (ha : rest.all isArg = true) : sends rest = 0 := by
  induction rest with
  | nil => rfl
  | cons e es ih =>
    simp only [List.all_cons, Bool.and_eq_true] at ha
    cases e <;> first | (simp [isArg] at ha; done) | skip
    exact ih ha.2

theorem sends_cmd (w g : List Byte) (rest : List Ev) : sends (.cmd w g :: rest) = sends rest + 1 := by
  unfold sends
  rw [List.filter_cons_of_pos (by simp [sent])]
  rfl

theorem Adds.said {d e : Dev S R X} {w : List Byte} (h : Said d w e) : Adds 1 d e := by
  obtain ⟨⟨g, rest, ht, ha⟩, _⟩ := h
  refine ⟨_, ht, ?_, by simp [argsBelong, isCmd]⟩
  rw [sends_cmd, sends_args ha]
  exact Nat.le_refl 1

theorem Adds.turn {sd rc : S} {shape : Nat → List (List Byte) → Prop}
    {Q : Option (List Byte) → Dev S R X → Prop} {d e : Dev S R X} (h : Turn sd rc shape Q d e) :
    Adds 1 d e := by
  cases h with
  | quiet ht hs hk => exact .same ht
  | cmd w g rest ht hw ha hs hk hq => exact .said ⟨⟨g, rest, ht, ha⟩, hk⟩
  | send rest ht ha hn hsh hwt hrp hs hk =>
    refine ⟨_, ht, ?_, by simp [argsBelong, isCmd]⟩
    rw [sends_cmd, sends_args ha]
    exact Nat.le_refl 1
  | pay h1 ht hb hs hk hp => exact ⟨_, ht, by simp [sends, sent], by simp [argsBelong, isArg, isCmd]⟩
  | data h1 hq h2 ht hb h3 hs hl hk =>
    exact ⟨_, ht.trans (receive_true hq).1, by simp [sends, sent], by simp [argsBelong, isArg, isCmd]⟩

theorem adds_fillLine (d : Dev S R X) (stop : Mem → Nat → Byte → Option R) :
    Adds 0 d (d.fillLine stop).1 := by
  unfold fillLine
  split
  · dsimp only
    split
    · exact .same rfl
    · exact ⟨_, rfl, by simp [sends, sent], by simp [argsBelong, isArg, isCmd]⟩
  · exact .refl 0 d

theorem Sim7x00.adds_run (p : Platform) (d : D) (ok : Bool) : Adds 1 d (run p d ok) := by
  have hp : ∀ d : D, Adds 1 d (proceed d) := by
    intro d
    unfold proceed
    split
    · exact .refl 1 d
    · split
      · exact .same rfl
      · show Adds 1 d.askSpace _
        generalize d.askSpace = d
        unfold sendNext
        split
        · exact .said ((said_sendCommand d b!"AT+CSQ").set rfl ⟨rfl, rfl, rfl, rfl, rfl, rfl⟩)
        · dsimp only
          by_cases hq : (SimDev.sendIDRequest d iccidCommand).2 = true
          · rw [if_pos hq]
            obtain ⟨w, hm, g1, g2, ht⟩ := SimDev.sendIDRequest_true hq
            exact ⟨_, (by simpa using ht : _ = d.trace ++ [.cmd w g1, .arg lineEnd g2]),
              by simp [sends, sent], by simp [argsBelong, isArg, isCmd]⟩
          · rw [if_neg hq]
            exact (Adds.same (n := 0) (SimDev.sendIDRequest_false (by simpa using hq)).1).trans
              (.turn (act_turn _)) |>.mono (by omega)
  unfold run
  split
  · unfold tryOpen; split <;> exact .same rfl
  · split
    · exact .refl 1 d
    · split
      · refine ⟨[.flush, .cmd _ _, .arg _ _], (by simp [handleReset]; exact ⟨⟨rfl, rfl⟩, rfl, rfl⟩), by simp [sends, sent], by simp [argsBelong, isArg, isCmd]⟩
      · unfold work
        have h1 : Adds 0 d d.fillLineBuffer.1 := adds_fillLine d _
        dsimp only
        split
        · have h2 : Adds 0 d.fillLineBuffer.1 (parseLine p d.fillLineBuffer.1).1 :=
            .same (parseLine_trace p _)
          split
          · exact (h1.trans h2).mono (by omega)
          · exact ((h1.trans h2).trans (hp _)).mono (by omega)
        · have h2 : Adds 0 d.fillLineBuffer.1 (flushIfDisconnecting d.fillLineBuffer.1) := by
            unfold flushIfDisconnecting
            split
            · exact ⟨[_], rfl, by simp [sends, sent], by simp [argsBelong, isArg, isCmd]⟩
            · exact .refl 0 _
          exact ((h1.trans h2).trans (hp _)).mono (by omega)

theorem Sim800.adds_run (p : Platform) (d : D) (ok : Bool) : Adds 1 d (run p d ok) := by
  have hp : ∀ d : D, Adds 1 d (proceed d) := by
    intro d
    unfold proceed
    split
    · exact .refl 1 d
    · split
      · exact .same rfl
      · show Adds 1 d.askSpace _
        generalize d.askSpace = d
        unfold sendNext
        split
        · exact .said ((said_sendCommand d b!"AT+CSQ").set rfl ⟨rfl, rfl, rfl, rfl, rfl, rfl⟩)
        · dsimp only
          by_cases hq : (SimDev.sendIDRequest d iccidCommand).2 = true
          · rw [if_pos hq]
            obtain ⟨w, hm, g1, g2, ht⟩ := SimDev.sendIDRequest_true hq
            exact ⟨_, (by simpa using ht : _ = d.trace ++ [.cmd w g1, .arg lineEnd g2]),
              by simp [sends, sent], by simp [argsBelong, isArg, isCmd]⟩
          · rw [if_neg hq]
            exact (Adds.same (n := 0) (SimDev.sendIDRequest_false (by simpa using hq)).1).trans
              (.turn (act_turn _)) |>.mono (by omega)
  unfold run
  split
  · unfold tryOpen; split <;> exact .same rfl
  · split
    · exact .refl 1 d
    · have h0 : Adds 0 d (if d.resetPending then handleReset d else d) := by
        split
        · exact ⟨_, (handleReset_facts d).1, by simp [sends, sent], by simp [argsBelong, isArg, isCmd]⟩
        · exact .refl 0 d
      generalize (if d.resetPending then handleReset d else d) = e at h0 ⊢
      unfold work
      have h1 := h0.trans (adds_fillLine e (SimDev.lineStop e.rep))
      change Adds 0 d e.fillLineBuffer.1 at h1
      dsimp only
      split
      · have h2 : Adds 0 e.fillLineBuffer.1 (parseLine p e.fillLineBuffer.1).1 :=
          .same (parseLine_trace p _)
        split
        · exact (h1.trans h2).mono (by omega)
        · exact ((h1.trans h2).trans (hp _)).mono (by omega)
      · have h2 : Adds 0 e.fillLineBuffer.1 (flushIfDisconnecting e.fillLineBuffer.1) := by
          unfold flushIfDisconnecting
          split
          · exact ⟨[_], rfl, by simp [sends, sent], by simp [argsBelong, isArg, isCmd]⟩
          · exact .refl 0 _
        exact ((h1.trans h2).trans (hp _)).mono (by omega)

theorem Espressif.adds_run (p : Platform) (d : D) (ok : Bool) : Adds 1 d (run p d ok) := by
  have hp : ∀ d : D, Adds 1 d (proceed p d) := by
    intro d
    unfold proceed
    split
    · exact .refl 1 d
    · split
      · exact .same rfl
      · show Adds 1 d.askSpace _
        generalize d.askSpace = d
        unfold sendNext
        split
        · exact .said ((said_sendCommand d b!"AT+CWJAP?").set rfl ⟨rfl, rfl, rfl, rfl, rfl, rfl⟩)
        · split
          · exact .said ((said_sendCommand d b!"AT+CIPSTAMAC?").set rfl ⟨rfl, rfl, rfl, rfl, rfl, rfl⟩)
          · exact .turn (act_turn _)
  unfold run
  split
  · unfold tryOpen; split <;> exact .same rfl
  · split
    · refine ⟨[.flush, .cmd _ _, .arg _ _], (by simp [handleReset]; exact ⟨⟨rfl, rfl⟩, rfl, rfl⟩), by simp [sends, sent], by simp [argsBelong, isArg, isCmd]⟩
    · unfold work
      have h1 : Adds 0 d (fillLineBuffer d).1 := adds_fillLine d _
      dsimp only
      split
      · have h2 : Adds 0 (fillLineBuffer d).1 (parseLine p (fillLineBuffer d).1).1 :=
          .same (parseLine_trace p _)
        split
        · exact (h1.trans h2).mono (by omega)
        · exact ((h1.trans h2).trans (hp _)).mono (by omega)
      · have h2 : Adds 0 (fillLineBuffer d).1 (flushIfDisconnecting (fillLineBuffer d).1) := by
          unfold flushIfDisconnecting
          split
          · exact ⟨[_], rfl, by simp [sends, sent], by simp [argsBelong, isArg, isCmd]⟩
          · exact .refl 0 _
        exact ((h1.trans h2).trans (hp _)).mono (by omega)

theorem CC1352P7.adds_run (p : Platform) (d : D) (ok : Bool) : Adds 1 d (run p d ok) := by
  have hp : ∀ d : D, Adds 1 d (proceed p d) := by
    intro d
    unfold proceed
    split
    · exact .refl 1 d
    · split
      · exact .same rfl
      · show Adds 1 d.askSpace _
        generalize d.askSpace = d
        unfold sendNext
        split
        · exact .said ((said_sendCommand d b!"AT+CSQ").set rfl ⟨rfl, rfl, rfl, rfl, rfl, rfl⟩)
        · split
          · exact .said ((said_sendCommand d b!"AT+CIPSTAMAC").set rfl ⟨rfl, rfl, rfl, rfl, rfl, rfl⟩)
          · exact .turn (act_turn _)
  unfold run
  split
  · unfold tryOpen; split <;> exact .same rfl
  · have h0 : Adds 0 d (if d.resetPending then handleReset d else d) := by
      split
      · exact ⟨_, (handleReset_facts d).1, by simp [sends, sent], by simp [argsBelong, isArg, isCmd]⟩
      · exact .refl 0 d
    generalize (if d.resetPending then handleReset d else d) = e at h0 ⊢
    unfold work
    have h1 : Adds 0 d (fillLineBuffer e).1 := h0.trans (adds_fillLine e _)
    dsimp only
    split
    · have h2 : Adds 0 (fillLineBuffer e).1 (parseLine p (fillLineBuffer e).1).1 :=
        .same (parseLine_trace p _)
      split
      · exact (h1.trans h2).mono (by omega)
      · exact ((h1.trans h2).trans (hp _)).mono (by omega)
    · have h2 : Adds 0 (fillLineBuffer e).1 (flushIfDisconnecting (fillLineBuffer e).1) := by
        unfold flushIfDisconnecting
        split
        · exact ⟨[_], rfl, by simp [sends, sent], by simp [argsBelong, isArg, isCmd]⟩
        · exact .refl 0 _
      exact ((h1.trans h2).trans (hp _)).mono (by omega)

end Verif
