import Verif.Lemmas.Stages

/-!
# A call of `run()` that stores data does not end the connection

`Tied d`: while the driver fetches data, `isConnected()` is true (unless the modem is about to be reset).
-/

set_option linter.unusedSimpArgs false

namespace Verif

open Dev

variable {S R X : Type}

theorem isConnected_of_cs {d e : Dev S R X} (h : e.cs = d.cs) : e.isConnected = d.isConnected := by
  simp only [Dev.isConnected, h]

/-- `f`: fetching, `g`: waiting for the header of a block, `b`: a reply that comes at other times. -/
def Tied (f : S → Bool) (g b : R → Bool) (x : S → Bool) (d : Dev S R X) : Prop :=
  d.resetPending = true ∨
    (((f d.snd || g d.rep) = true → d.isConnected = true) ∧ (b d.rep = true → f d.snd = false) ∧ (g d.rep = true → x d.snd = false))

theorem parseDns_cs (d : SimDev S R) : (SimDev.parseDnsReply d).2 = true → (SimDev.parseDnsReply d).1.cs = d.cs := by
  unfold SimDev.parseDnsReply
  dsimp only
  repeat' split
  all_goals simp

theorem parseDns_reset (d : SimDev S R) : d.resetPending = true → (SimDev.parseDnsReply d).1.resetPending = true := by
  unfold SimDev.parseDnsReply
  dsimp only
  repeat' split
  all_goals simp

theorem fillLine_rep_of (d : Dev S R X) (stop : Mem → Nat → Byte → Option R) (P : R → Prop) (h0 : P d.rep)
    (h : ∀ m k c r, stop m k c = some r → P r) : P (d.fillLine stop).1.rep := by
  have key : ∀ (n : Nat) (s : Ser) (l : Mem) (k : Nat) x, (Dev.fillLoop stop n s l k).2.2.2 = some x → P x.1 := by
    intro n
    induction n with
    | zero => intro s l k x h; simp [Dev.fillLoop] at h
    | succ n ih =>
      intro s l k x hx
      unfold Dev.fillLoop at hx
      simp only at hx
      split at hx
      · simp at hx
      · split at hx
        · rename_i y hy
          have := h _ _ _ _ hy
          simp at hx
          rw [← hx]; exact this
        · exact ih _ _ _ _ hx
  unfold Dev.fillLine
  split
  · dsimp only
    split
    · exact h0
    · rename_i x n hx
      exact key _ _ _ _ _ hx
  · exact h0

section
variable {f x : S → Bool} {g b : R → Bool}

theorem Tied.same {d e : Dev S R X} (h : Tied f g b x d) (h1 : e.snd = d.snd) (h2 : e.rep = d.rep) (h3 : e.cs = d.cs)
    (h4 : e.resetPending = d.resetPending) : Tied f g b x e := by
  unfold Tied at h ⊢
  rw [h1, h2, h4, isConnected_of_cs h3]
  exact h

theorem tied_calls : Calls (Tied (X := X) f g b x) where
  io _ _ _ _ _ h := h.same rfl rfl rfl rfl
  isOpen _ _ h := h.same rfl rfl rfl rfl
  conn _ h _ _ := h.same rfl rfl rfl rfl
  disc0 _ h _ := h.same rfl rfl rfl rfl
  disc _ h _ := h.same rfl rfl rfl rfl
  write0 _ h _ := h.same rfl rfl rfl rfl
  write _ _ h _ := h.same rfl rfl rfl rfl
  read _ _ h := h.same rfl rfl rfl rfl
  rssi _ h := h.same rfl rfl rfl rfl
  userTx _ _ _ _ h := h.same rfl rfl rfl rfl
  userRx _ _ _ _ h := h.same rfl rfl rfl rfl
  host _ _ _ _ h := h.same rfl rfl rfl rfl

end

namespace Sim7x00

theorem act_lasting (d : D) : (act d).rbuf = d.rbuf ∨ (d.snd = .receiving ∧ (act d).cs = d.cs) := by
  unfold act
  cases h : d.snd <;> dsimp only
  case receiving =>
    right
    refine ⟨rfl, ?_⟩
    unfold actReceiving
    split
    · dsimp only; split <;> simp
    · split <;> rfl
  all_goals left
  all_goals first
    | simp; done
    | (simp only [actCgsockcont]; repeat' split
       all_goals simp; done)
    | (simp only [actCipopen]; repeat' split
       all_goals simp; done)
    | (simp only [actConnected]; repeat' split
       all_goals simp; done)
    | (simp only [actCiprxget2]; repeat' split
       all_goals simp; done)
    | (repeat' split
       all_goals simp; done)

theorem proceed_lasting (d : D) : (proceed d).rbuf = d.rbuf ∨
    (d.snd = .receiving ∧ d.rep = .okReply ∧ (proceed d).cs = d.cs) := by
  unfold proceed
  split
  · exact .inl rfl
  · rename_i h
    have hr : d.rep = .okReply := by
      by_cases e : d.rep = .okReply
      · exact e
      · exact absurd (Or.inr e) h
    split
    · exact .inl rfl
    · unfold sendNext
      split
      · left; simp
      · dsimp only
        split
        · left; simp
        · rcases act_lasting (SimDev.sendIDRequest d.askSpace iccidCommand).1 with h | ⟨h1, h2⟩
          · left; rw [h]; simp
          · right; exact ⟨by simpa using h1, hr, by rw [h2]; simp⟩

/-- Data are being fetched. -/
def fetching : Snd → Bool
  | .sendCiprxget4 | .sendCiprxget2 | .waitReceive | .receiving => true
  | _ => false

/-- The header of a block of data is expected. -/
def heading : Rep → Bool
  | .ciprxget2 => true
  | _ => false

/-- A reply during which an error message changes the state of the connection. -/
def aside : Rep → Bool
  | .cdnsgip => true
  | _ => false

/-- A state the driver is not in when it expects the header of a block. -/
def never : Snd → Bool
  | _ => false

abbrev Tie : D → Prop := Tied fetching heading aside never

theorem act_tied (d : D) (h : Tie d) (hr : d.resetPending = false) (ho : d.rep = .okReply) : Tie (act d) := by
  have hf : fetching d.snd = true → d.isConnected = true := by
    rcases h with h | h
    · rw [hr] at h; cases h
    · exact fun hq => h.1 (by simp [hq])
  right
  unfold act
  cases hs : d.snd <;> dsimp only <;> rw [hs] at hf
  case connected =>
    unfold actConnected
    try simp only [handleDisconnect]
    (repeat' split) <;> simp_all [fetching, heading, aside, never, Dev.isConnected]
  case receiving =>
    unfold actReceiving
    try simp only [handleDisconnect]
    (repeat' split) <;> simp_all [fetching, heading, aside, never, Dev.isConnected]
  case sendCiprxget2 =>
    unfold actCiprxget2
    try simp only [handleDisconnect]
    (repeat' split) <;> simp_all [fetching, heading, aside, never, Dev.isConnected]
  case sendCipopen =>
    unfold actCipopen
    try simp only [handleDisconnect]
    (repeat' split) <;> simp_all [fetching, heading, aside, never, Dev.isConnected]
  case sendCgsockcont =>
    unfold actCgsockcont
    try simp only [handleDisconnect]
    (repeat' split) <;> simp_all [fetching, heading, aside, never, Dev.isConnected]
  all_goals first
    | (simp_all [fetching, heading, aside, never, Dev.isConnected]; done)
    | (try simp only [handleConnect, handleDisconnect]
       (repeat' split) <;> simp_all [fetching, heading, aside, never, Dev.isConnected])

theorem parseReply_tied (p : Platform) (d : D) (h : Tie d) : Tie (parseReply p d).1 := by
  unfold Tie Tied at h ⊢
  unfold parseReply
  cases hr : d.rep <;> dsimp only
  case cdnsgip =>
    have hd := parseDns_cs d
    have hq := parseDns_reset d
    rw [hr] at h
    cases hb : (SimDev.parseDnsReply d).2
    · rcases h with h | ⟨h1, h2, h3⟩
      · exact .inl (hq h)
      · right
        simp [hr, heading, h2 rfl, never, aside]
    · rcases h with h | ⟨h1, h2, h3⟩
      · exact .inl (hq h)
      · right
        simp [heading, h2 rfl, never, aside]
  case ciprxget4 => cases h : (SimDev.parseCiprxget4 p d).2 <;> simp_all [heading, aside, Dev.isConnected]
  case ciprxget2 => cases h : (SimDev.parseCiprxget2 p d).2 <;> simp_all [heading, aside, fetching, never, Dev.isConnected]
  case csq => cases h : (SimDev.parseCsq p d).2 <;> simp_all [heading, aside, Dev.isConnected]
  case requestID => cases h : (SimDev.parseIDReply d).2 <;> simp_all [heading, aside, Dev.isConnected]
  all_goals
    repeat' split
    all_goals simp_all [fetching, heading, aside, never, Dev.isConnected]

theorem checkState_tied (d : D) (h : Tie d) : Tie (checkState d) := by
  unfold checkState SimDev.checkConnectionState
  repeat' split
  all_goals exact h.same rfl rfl rfl rfl

theorem parseLine_tied (p : Platform) (d : D) (h : Tie d) : Tie (parseLine p d).1 := by
  have hw : Tie (parseWait d).1 := by
    unfold parseWait
    repeat' split
    all_goals first | exact h | exact h.same rfl rfl rfl rfl | exact .inl rfl
  unfold parseLine
  dsimp only
  split
  · exact hw
  · split
    · exact parseReply_tied p _ hw
    · exact checkState_tied _ (parseReply_tied p _ hw)

theorem tied_own : Own Tie where
  reset _ _ := .inr ⟨by simp [SimDev.resetStates, fetching, heading], by simp [SimDev.resetStates, aside], by simp [SimDev.resetStates, heading]⟩
  ext _ _ h := h.same rfl rfl rfl rfl
  lock _ h _ _ := h.same rfl rfl rfl rfl
  unlock _ h := h.same rfl rfl rfl rfl

theorem tied_rep {d e : D} (h : Tie d) (hr : d.resetPending = false) (h1 : e.snd = d.snd) (h2 : heading e.rep = false)
    (h3 : aside e.rep = false) (h4 : e.cs = d.cs) : Tie e := by
  rcases h with h | h
  · rw [hr] at h; cases h
  · refine .inr ⟨fun q => ?_, fun q => ?_, fun q => ?_⟩
    · rw [isConnected_of_cs h4]
      rw [h1, h2, Bool.or_false] at q
      exact h.1 (by simp [q])
    · rw [h3] at q; cases q
    · rw [h2] at q; cases q

theorem tied_sections (p : Platform) : Sections p Tie where
  fail _ h _ := by
    rcases h with h | ⟨h1, _, _⟩
    · exact .inl h
    · exact .inr ⟨fun q => h1 (by simp only [fetching, Bool.false_or] at q; simp [q]), fun _ => rfl, fun _ => rfl⟩
  reset d _ _ _ := by
    right
    refine ⟨?_, ?_, ?_⟩ <;> simp only [handleReset] <;> (repeat' split) <;> simp [fetching, heading, aside]
  line d s m l _ h _ _ _ _ := parseLine_tied p _ (h.same rfl rfl rfl rfl)
  drop _ h _ _ _ := h.same (by simp) (by simp) (by simp) (by simp)
  csq _ h hr _ _ _ _ _ := tied_rep h hr (by simp) rfl rfl (by simp)
  ident _ h hr _ _ _ _ := tied_rep h hr (by simp) rfl rfl (by simp)
  identNone _ h _ := h.same (by simp) (by simp) (by simp) (by simp)
  act _ h hr _ ho _ := act_tied _ h hr ho

theorem step_tied (p : Platform) (op : Op) {d : D} (h : Inv d ∧ Tie d) : Inv (step p d op) ∧ Tie (step p d op) :=
  ⟨step_inv p op h.1, step_stages (tied_sections p) tied_calls tied_own h.1.1.line h.2 op⟩

theorem proceed_stored (d : D) (h : Tie d) (hr : d.rep = .okReply → d.resetPending = false) :
    (proceed d).rbuf = d.rbuf ∨ (proceed d).isConnected = true := by
  rcases proceed_lasting d with h1 | ⟨h1, h2, h3⟩
  · exact .inl h1
  · right
    rw [isConnected_of_cs h3]
    rcases h with h | h
    · rw [hr h2] at h; cases h
    · exact h.1 (by simp [h1, fetching])

theorem parseLine_rbuf (p : Platform) (d : D) : (parseLine p d).1.rbuf = d.rbuf := by
  unfold parseLine
  dsimp only
  have hw : (parseWait d).1.rbuf = d.rbuf := by
    unfold parseWait
    repeat' split
    all_goals rfl
  have hr : ∀ d : D, (parseReply p d).1.rbuf = d.rbuf := by
    intro d
    unfold parseReply
    cases hr : d.rep <;> dsimp only
    case cdnsgip => cases h : (SimDev.parseDnsReply d).2 <;> simp
    case ciprxget4 => cases h : (SimDev.parseCiprxget4 p d).2 <;> simp
    case ciprxget2 => cases h : (SimDev.parseCiprxget2 p d).2 <;> simp
    case csq => cases h : (SimDev.parseCsq p d).2 <;> simp
    case requestID => cases h : (SimDev.parseIDReply d).2 <;> simp
    all_goals
      repeat' split
      all_goals rfl
  have hc : ∀ d : D, (checkState d).rbuf = d.rbuf := by
    intro d
    unfold checkState SimDev.checkConnectionState
    repeat' split
    all_goals rfl
  split
  · exact hw
  · split
    · rw [hr, hw]
    · rw [hc, hr, hw]

theorem work_stored (p : Platform) (d : D) (h : Tie d) (hr : d.resetPending = false) :
    (work p d).rbuf = d.rbuf ∨ (work p d).isConnected = true := by
  have hf : Tie (SimDev.fillLineBuffer d).1 := h.same (by simp) (by simp) (by simp) (by simp)
  have hq : (SimDev.fillLineBuffer d).1.resetPending = false := by simpa using hr
  unfold work
  dsimp only
  split
  · split
    · left; rw [parseLine_rbuf]; simp
    · rename_i h1
      rcases proceed_stored _ (parseLine_tied p _ hf) (parseLine_reset hq (by simpa using h1)) with h2 | h2
      · left; rw [h2, parseLine_rbuf]; simp
      · exact .inr h2
  · have hd : Tie (flushIfDisconnecting (SimDev.fillLineBuffer d).1) := by
      unfold flushIfDisconnecting
      split
      · exact hf.same (by simp) (by simp) (by simp) (by simp)
      · exact hf
    have h0 : (flushIfDisconnecting (SimDev.fillLineBuffer d).1).resetPending = false := by
      unfold flushIfDisconnecting
      split <;> simpa using hr
    rcases proceed_stored _ hd (fun _ => h0) with h2 | h2
    · left; rw [h2]; unfold flushIfDisconnecting; split <;> simp
    · exact .inr h2

/-- A call of `run()` that stores data leaves the device connected. -/
theorem run_stored (p : Platform) (d : D) (ok : Bool) (h : Tie d) :
    (run p d ok).rbuf = d.rbuf ∨ (run p d ok).isConnected = true := by
  unfold run
  split
  · left; unfold tryOpen; split <;> rfl
  split
  · exact .inl rfl
  split
  · left; simp [handleReset]
  · rename_i h1
    exact work_stored p d h (by simpa using h1)

end Sim7x00

namespace Sim800

theorem act_lasting (d : D) : (act d).rbuf = d.rbuf ∨ (d.snd = .receiving ∧ (act d).cs = d.cs) := by
  unfold act
  cases h : d.snd <;> dsimp only
  case receiving =>
    right
    refine ⟨rfl, ?_⟩
    unfold actReceiving
    split
    · dsimp only; split <;> simp
    · split <;> rfl
  all_goals left
  all_goals first
    | simp; done
    | (simp only [actCstt]; repeat' split
       all_goals simp; done)
    | (simp only [actCipstart]; repeat' split
       all_goals simp; done)
    | (simp only [actConnected]; repeat' split
       all_goals simp; done)
    | (simp only [actCiprxget2]; repeat' split
       all_goals simp; done)
    | (repeat' split
       all_goals simp; done)

theorem proceed_lasting (d : D) : (proceed d).rbuf = d.rbuf ∨
    (d.snd = .receiving ∧ d.rep = .okReply ∧ (proceed d).cs = d.cs) := by
  unfold proceed
  split
  · exact .inl rfl
  · rename_i h
    have hr : d.rep = .okReply := by
      by_cases e : d.rep = .okReply
      · exact e
      · exact absurd (Or.inr e) h
    split
    · exact .inl rfl
    · unfold sendNext
      split
      · left; simp
      · dsimp only
        split
        · left; simp
        · rcases act_lasting (SimDev.sendIDRequest d.askSpace iccidCommand).1 with h | ⟨h1, h2⟩
          · left; rw [h]; simp
          · right; exact ⟨by simpa using h1, hr, by rw [h2]; simp⟩

/-- Data are being fetched. -/
def fetching : Snd → Bool
  | .sendCiprxget4 | .sendCiprxget2 | .waitReceive | .receiving => true
  | _ => false

/-- The header of a block of data is expected. -/
def heading : Rep → Bool
  | .ciprxget2 => true
  | _ => false

/-- A reply during which an error message changes the state of the connection. -/
def aside : Rep → Bool
  | .cdnsgip => true
  | _ => false

/-- A state the driver is not in when it expects the header of a block. -/
def never : Snd → Bool
  | _ => false

abbrev Tie : D → Prop := Tied fetching heading aside never

theorem act_tied (d : D) (h : Tie d) (hr : d.resetPending = false) (ho : d.rep = .okReply) : Tie (act d) := by
  have hf : fetching d.snd = true → d.isConnected = true := by
    rcases h with h | h
    · rw [hr] at h; cases h
    · exact fun hq => h.1 (by simp [hq])
  right
  unfold act
  cases hs : d.snd <;> dsimp only <;> rw [hs] at hf
  case connected =>
    unfold actConnected
    try simp only [handleDisconnect]
    (repeat' split) <;> simp_all [fetching, heading, aside, never, Dev.isConnected]
  case receiving =>
    unfold actReceiving
    try simp only [handleDisconnect]
    (repeat' split) <;> simp_all [fetching, heading, aside, never, Dev.isConnected]
  case sendCiprxget2 =>
    unfold actCiprxget2
    try simp only [handleDisconnect]
    (repeat' split) <;> simp_all [fetching, heading, aside, never, Dev.isConnected]
  case sendCipstart =>
    unfold actCipstart
    try simp only [handleDisconnect]
    (repeat' split) <;> simp_all [fetching, heading, aside, never, Dev.isConnected]
  case sendCstt =>
    unfold actCstt
    try simp only [handleDisconnect]
    (repeat' split) <;> simp_all [fetching, heading, aside, never, Dev.isConnected]
  all_goals first
    | (simp_all [fetching, heading, aside, never, Dev.isConnected]; done)
    | (try simp only [handleConnect, handleDisconnect]
       (repeat' split) <;> simp_all [fetching, heading, aside, never, Dev.isConnected])

theorem parseReply_tied (p : Platform) (d : D) (h : Tie d) : Tie (parseReply p d) := by
  unfold Tie Tied at h ⊢
  unfold parseReply
  cases hr : d.rep <;> dsimp only
  case cdnsgip =>
    have hd := parseDns_cs d
    have hq := parseDns_reset d
    rw [hr] at h
    cases hb : (SimDev.parseDnsReply d).2
    · rcases h with h | ⟨h1, h2, h3⟩
      · exact .inl (hq h)
      · right
        simp [hr, heading, h2 rfl, never, aside]
    · rcases h with h | ⟨h1, h2, h3⟩
      · exact .inl (hq h)
      · right
        simp [heading, h2 rfl, never, aside]
  case ciprxget4 => cases h : (SimDev.parseCiprxget4 p d).2 <;> simp_all [heading, aside, Dev.isConnected]
  case ciprxget2 => cases h : (SimDev.parseCiprxget2 p d).2 <;> simp_all [heading, aside, fetching, never, Dev.isConnected]
  case csq =>
    rw [hr] at h
    have h' : d.resetPending = true ∨ (fetching d.snd = true → d.isConnected = true) :=
      h.imp id fun q hf => q.1 (by simp [hf])
    cases ha : (SimDev.parseCsq p d).2 <;> (try simp only [Bool.false_eq_true, if_true, if_false]) <;>
      split <;> simp [heading, aside, hr] <;> simpa [Dev.isConnected] using h'
  case requestID => cases h : (SimDev.parseIDReply d).2 <;> simp_all [heading, aside, Dev.isConnected]
  case cipstart =>
    split
    · rename_i hd
      simp [Dev.handleDisconnect, hd, fetching, heading, aside, never]
    · repeat' split
      all_goals simp_all [fetching, heading, aside, never, Dev.isConnected]
  all_goals
    repeat' split
    all_goals simp_all [fetching, heading, aside, never, Dev.isConnected]

theorem checkState_tied (d : D) (h : Tie d) : Tie (checkState d) := by
  unfold checkState SimDev.checkConnectionState
  repeat' split
  all_goals exact h.same rfl rfl rfl rfl

theorem parseLine_tied (p : Platform) (d : D) (h : Tie d) : Tie (parseLine p d).1 := by
  have hw : Tie (parseWait d) := by
    unfold parseWait
    split
    · exact h.same rfl rfl rfl rfl
    · exact h
  unfold parseLine
  split
  · exact .inl rfl
  · exact checkState_tied _ (parseReply_tied p _ hw)

theorem tied_own : Own Tie where
  reset _ _ := .inr ⟨by simp [SimDev.resetStates, fetching, heading], by simp [SimDev.resetStates, aside], by simp [SimDev.resetStates, heading]⟩
  ext _ _ h := h.same rfl rfl rfl rfl
  lock _ h _ _ := h.same rfl rfl rfl rfl
  unlock _ h := h.same rfl rfl rfl rfl

theorem tied_rep {d e : D} (h : Tie d) (hr : d.resetPending = false) (h1 : e.snd = d.snd) (h2 : heading e.rep = false)
    (h3 : aside e.rep = false) (h4 : e.cs = d.cs) : Tie e := by
  rcases h with h | h
  · rw [hr] at h; cases h
  · refine .inr ⟨fun q => ?_, fun q => ?_, fun q => ?_⟩
    · rw [isConnected_of_cs h4]
      rw [h1, h2, Bool.or_false] at q
      exact h.1 (by simp [q])
    · rw [h3] at q; cases q
    · rw [h2] at q; cases q

theorem tied_sections (p : Platform) : Sections p Tie where
  fail _ h _ := by
    rcases h with h | ⟨h1, _, _⟩
    · exact .inl h
    · exact .inr ⟨fun q => h1 (by simp only [fetching, Bool.false_or] at q; simp [q]), fun _ => rfl, fun _ => rfl⟩
  reset d _ _ _ := by
    right
    refine ⟨?_, ?_, ?_⟩ <;> simp only [handleReset] <;> (repeat' split) <;> simp [fetching, heading, aside]
  line d s m l _ h _ _ _ _ := parseLine_tied p _ (h.same rfl rfl rfl rfl)
  drop _ h _ _ _ := h.same (by simp) (by simp) (by simp) (by simp)
  csq _ h hr _ _ _ _ _ := tied_rep h hr (by simp) rfl rfl (by simp)
  ident _ h hr _ _ _ _ := tied_rep h hr (by simp) rfl rfl (by simp)
  identNone _ h _ := h.same (by simp) (by simp) (by simp) (by simp)
  act _ h hr _ ho _ := act_tied _ h hr ho

theorem step_tied (p : Platform) (op : Op) {d : D} (h : Inv d ∧ Tie d) : Inv (step p d op) ∧ Tie (step p d op) :=
  ⟨step_inv p op h.1, step_stages (tied_sections p) tied_calls tied_own h.1.1.line h.2 op⟩

theorem proceed_stored (d : D) (h : Tie d) (hr : d.rep = .okReply → d.resetPending = false) :
    (proceed d).rbuf = d.rbuf ∨ (proceed d).isConnected = true := by
  rcases proceed_lasting d with h1 | ⟨h1, h2, h3⟩
  · exact .inl h1
  · right
    rw [isConnected_of_cs h3]
    rcases h with h | h
    · rw [hr h2] at h; cases h
    · exact h.1 (by simp [h1, fetching])

theorem parseLine_rbuf (p : Platform) (d : D) : (parseLine p d).1.rbuf = d.rbuf := by
  have hr : ∀ d : D, (parseReply p d).rbuf = d.rbuf := by
    intro d
    unfold parseReply
    cases hr : d.rep <;> dsimp only
    case cdnsgip => cases h : (SimDev.parseDnsReply d).2 <;> simp
    case ciprxget4 => cases h : (SimDev.parseCiprxget4 p d).2 <;> simp
    case ciprxget2 => cases h : (SimDev.parseCiprxget2 p d).2 <;> simp
    case csq =>
      cases h : (SimDev.parseCsq p d).2 <;> simp only [Bool.false_eq_true, if_true, if_false] <;> split <;> simp
    case requestID => cases h : (SimDev.parseIDReply d).2 <;> simp
    all_goals
      repeat' split
      all_goals simp
  have hc : ∀ d : D, (checkState d).rbuf = d.rbuf := by
    intro d
    unfold checkState SimDev.checkConnectionState
    repeat' split
    all_goals rfl
  have hw : (parseWait d).rbuf = d.rbuf := by
    unfold parseWait
    split <;> rfl
  unfold parseLine
  split
  · rfl
  · rw [hc, hr, hw]

theorem work_stored (p : Platform) (d : D) (h : Tie d) (hr : d.resetPending = false) :
    (work p d).rbuf = d.rbuf ∨ (work p d).isConnected = true := by
  have hf : Tie (SimDev.fillLineBuffer d).1 := h.same (by simp) (by simp) (by simp) (by simp)
  have hq : (SimDev.fillLineBuffer d).1.resetPending = false := by simpa using hr
  unfold work
  dsimp only
  split
  · split
    · left; rw [parseLine_rbuf]; simp
    · rename_i h1
      rcases proceed_stored _ (parseLine_tied p _ hf) (parseLine_reset hq (by simpa using h1)) with h2 | h2
      · left; rw [h2, parseLine_rbuf]; simp
      · exact .inr h2
  · have hd : Tie (flushIfDisconnecting (SimDev.fillLineBuffer d).1) := by
      unfold flushIfDisconnecting
      split
      · exact hf.same (by simp) (by simp) (by simp) (by simp)
      · exact hf
    have h0 : (flushIfDisconnecting (SimDev.fillLineBuffer d).1).resetPending = false := by
      unfold flushIfDisconnecting
      split <;> simpa using hr
    rcases proceed_stored _ hd (fun _ => h0) with h2 | h2
    · left; rw [h2]; unfold flushIfDisconnecting; split <;> simp
    · exact .inr h2

/-- A call of `run()` that stores data leaves the device connected. -/
theorem run_stored (p : Platform) (d : D) (ok : Bool) (h : Tie d) :
    (run p d ok).rbuf = d.rbuf ∨ (run p d ok).isConnected = true := by
  unfold run
  split
  · left; unfold tryOpen; split <;> rfl
  split
  · exact .inl rfl
  split
  · rename_i h1 h2 h3
    have a1 : (handleReset d).rbuf = d.rbuf := by simp only [handleReset]; split <;> simp
    have a2 : (handleReset d).resetPending = false := by simp only [handleReset]; split <;> simp
    rw [← a1]
    exact work_stored p _ ((tied_sections p).reset d h h3 (by simpa using h2)) a2
  · rename_i h1
    exact work_stored p d h (by simpa using h1)

end Sim800

namespace Espressif

theorem act_lasting (d : D) : (act d).rbuf = d.rbuf ∨ (d.snd = .receiving ∧ (act d).cs = d.cs) := by
  unfold act
  cases h : d.snd <;> dsimp only
  case receiving =>
    right
    refine ⟨rfl, ?_⟩
    unfold actReceiving
    split
    · dsimp only; split <;> simp
    · split <;> rfl
  all_goals left
  all_goals first
    | simp; done
    | (simp only [actCwjap]; repeat' split
       all_goals simp; done)
    | (simp only [actCipstart]; repeat' split
       all_goals simp; done)
    | (simp only [actConnected]; repeat' split
       all_goals simp; done)
    | (simp only [actCiprecvdata]; repeat' split
       all_goals simp; done)
    | (repeat' split
       all_goals simp; done)

theorem proceed_lasting (p : Platform) (d : D) : (proceed p d).rbuf = d.rbuf ∨
    (d.snd = .receiving ∧ d.rep = .okReply ∧ (proceed p d).cs = d.cs) := by
  unfold proceed
  split
  · exact .inl rfl
  · rename_i h
    have hr : d.rep = .okReply := by
      by_cases e : d.rep = .okReply
      · exact e
      · exact absurd (Or.inr e) h
    split
    · exact .inl rfl
    · unfold sendNext
      split
      · left; simp
      · split
        · left; simp
        · rcases act_lasting d.askSpace with h | ⟨h1, h2⟩
          · left; rw [h]; simp
          · right; exact ⟨h1, hr, by rw [h2]; simp⟩

/-- Data are being fetched. -/
def fetching : Snd → Bool
  | .sendCiprecvdata | .waitReceive | .receiving => true
  | _ => false

/-- The header of a block of data is expected. -/
def heading : Rep → Bool
  | .waitCiprecvdata | .parseStateCiprecvdata => true
  | _ => false

/-- A reply during which an error message changes the state of the connection. -/
def aside : Rep → Bool
  | _ => false

/-- A state the driver is not in when it expects the header of a block. -/
def never : Snd → Bool
  | .connected => true
  | _ => false

abbrev Tie : D → Prop := Tied fetching heading aside never

theorem act_tied (d : D) (h : Tie d) (hr : d.resetPending = false) (ho : d.rep = .okReply) : Tie (act d) := by
  have hf : fetching d.snd = true → d.isConnected = true := by
    rcases h with h | h
    · rw [hr] at h; cases h
    · exact fun hq => h.1 (by simp [hq])
  right
  unfold act
  cases hs : d.snd <;> dsimp only <;> rw [hs] at hf
  case connected =>
    unfold actConnected
    try simp only [handleDisconnect]
    (repeat' split) <;> simp_all [fetching, heading, aside, never, Dev.isConnected]
  case receiving =>
    unfold actReceiving
    try simp only [handleDisconnect]
    (repeat' split) <;> simp_all [fetching, heading, aside, never, Dev.isConnected]
  case sendCiprecvdata =>
    unfold actCiprecvdata
    try simp only [handleDisconnect]
    (repeat' split) <;> simp_all [fetching, heading, aside, never, Dev.isConnected]
  case sendCipstart =>
    unfold actCipstart
    try simp only [handleDisconnect]
    (repeat' split) <;> simp_all [fetching, heading, aside, never, Dev.isConnected]
  case sendCwjap =>
    unfold actCwjap
    try simp only [handleDisconnect]
    (repeat' split) <;> simp_all [fetching, heading, aside, never, Dev.isConnected]
  all_goals first
    | (simp_all [fetching, heading, aside, never, Dev.isConnected]; done)
    | (try simp only [handleConnect, handleDisconnect]
       (repeat' split) <;> simp_all [fetching, heading, aside, never, Dev.isConnected])

theorem parseReply_tied (p : Platform) (d : D) (h : Tie d) : Tie (parseReply p d) := by
  unfold Tie Tied at h ⊢
  unfold parseReply
  simp only [parseCiprecvdata]
  cases hr : d.rep <;> dsimp only
  all_goals
    repeat' split
    all_goals first
      | (simp_all [fetching, heading, aside, never, Dev.isConnected]; done)
      | (simp_all [fetching, heading, aside, never, Dev.isConnected]
         exact h.imp id And.left)

theorem checkState_tied (p : Platform) (d : D) (h : Tie d) : Tie (checkState p d) := by
  unfold checkState
  dsimp only
  repeat' split
  all_goals first
    | exact h.same rfl rfl rfl rfl
    | exact h
    | (rcases h with h | ⟨h1, h2, h3⟩
       · exact .inl h
       · refine .inr ⟨fun hh => h1 ?_, fun _ => rfl, fun _ => rfl⟩
         simp only [Bool.or_eq_true] at hh ⊢
         exact hh.elim (fun q => absurd q (by simp [fetching])) .inr)

theorem parseLine_tied (p : Platform) (d : D) (h : Tie d) : Tie (parseLine p d).1 := by
  have hs : Tie (parseSendFail d) := by
    unfold parseSendFail
    split
    · rename_i hc
      rcases h with h | ⟨h1, h2, h3⟩
      · exact .inl h
      · refine .inr ⟨fun hh => ?_, h2, h3⟩
        exfalso
        simp only [hc.1, Bool.or_eq_true] at hh h3
        rcases hh with hh | hh
        · simp [fetching] at hh
        · exact absurd (h3 hh) (by simp [never])
    · exact h
  have hw : Tie (parseWait (parseSendFail d)) := by
    unfold parseWait
    split
    · exact hs.same rfl rfl rfl rfl
    · exact hs
  unfold parseLine
  split
  · exact .inl rfl
  · exact checkState_tied p _ (parseReply_tied p _ hw)

theorem fill_tied (d : D) (h : Tie d) : Tie (fillLineBuffer d).1 := by
  have hr : (fillLineBuffer d).1.rep = d.rep ∨ (d.rep = .waitCiprecvdata ∧ (fillLineBuffer d).1.rep = .parseStateCiprecvdata) := by
    refine fillLine_rep_of d (lineStop d.typ d.rep) (fun r => r = d.rep ∨ (d.rep = .waitCiprecvdata ∧ r = .parseStateCiprecvdata))
      (.inl rfl) fun m k c r h => ?_
    unfold lineStop at h
    split at h
    · exact .inl (by simpa using h.symm)
    · split at h
      · rename_i hc
        exact .inr ⟨hc.1, by simpa using h.symm⟩
      · cases h
  rcases hr with hr | ⟨h1, h2⟩
  · exact h.same (by simp) hr (by simp) (by simp)
  · unfold Tie Tied at h ⊢
    rw [h1] at h
    rw [h2, isConnected_of_cs (d := d) (by simp)]
    simpa [heading, aside] using h

theorem tied_own : Own Tie where
  reset _ _ := .inr ⟨by simp [resetStates, fetching, heading], by simp [resetStates, aside], by simp [resetStates, heading]⟩
  ext _ _ h := h.same rfl rfl rfl rfl
  ub _ h := h.same rfl rfl rfl rfl

theorem tied_rep {d e : D} (h : Tie d) (hr : d.resetPending = false) (h1 : e.snd = d.snd) (h2 : heading e.rep = false)
    (h3 : aside e.rep = false) (h4 : e.cs = d.cs) : Tie e := by
  rcases h with h | h
  · rw [hr] at h; cases h
  · refine .inr ⟨fun q => ?_, fun q => ?_, fun q => ?_⟩
    · rw [isConnected_of_cs h4]
      rw [h1, h2, Bool.or_false] at q
      exact h.1 (by simp [q])
    · rw [h3] at q; cases q
    · rw [h2] at q; cases q

theorem tied_sections (p : Platform) : Sections p Tie where
  fail _ h _ := by
    rcases h with h | ⟨h1, _, _⟩
    · exact .inl h
    · exact .inr ⟨fun q => h1 (by simp only [fetching, Bool.false_or] at q; simp [q]), fun _ => rfl, fun _ => rfl⟩
  reset d _ _ := by
    right
    refine ⟨?_, ?_, ?_⟩ <;> simp only [handleReset] <;> (repeat' split) <;> simp [fetching, heading, aside]
  line d s m l r _ h _ _ ha _ _ _ := by
    refine parseLine_tied p _ ?_
    rcases ha with e | ⟨e1, e2, _⟩
    · subst e; exact h.same rfl rfl rfl rfl
    · subst e2
      unfold Tie Tied at h ⊢
      rw [e1] at h
      exact h
  drop _ h _ _ _ := h.same (by simp) (by simp) (by simp) (by simp)
  csq _ h hr _ _ _ _ _ := tied_rep h hr (by simp) rfl rfl (by simp)
  mac _ h hr _ _ _ _ _ := tied_rep h hr (by simp) rfl rfl (by simp)
  act _ h hr _ ho _ := act_tied _ h hr ho

theorem step_tied (p : Platform) (op : Op) {d : D} (h : Inv d ∧ Tie d) : Inv (step p d op) ∧ Tie (step p d op) :=
  ⟨step_inv p op h.1, step_stages (tied_sections p) tied_calls tied_own h.1.line h.2 op⟩

theorem proceed_stored (p : Platform) (d : D) (h : Tie d) (hr : d.rep = .okReply → d.resetPending = false) :
    (proceed p d).rbuf = d.rbuf ∨ (proceed p d).isConnected = true := by
  rcases proceed_lasting p d with h1 | ⟨h1, h2, h3⟩
  · exact .inl h1
  · right
    rw [isConnected_of_cs h3]
    rcases h with h | h
    · rw [hr h2] at h; cases h
    · exact h.1 (by simp [h1, fetching])

theorem parseLine_rbuf (p : Platform) (d : D) : (parseLine p d).1.rbuf = d.rbuf := by
  have hr : ∀ d : D, (parseReply p d).rbuf = d.rbuf := by
    intro d
    unfold parseReply
    simp only [parseCiprecvdata]
    repeat' split
    all_goals simp
  have hc : ∀ d : D, (checkState p d).rbuf = d.rbuf := by
    intro d
    unfold checkState
    dsimp only
    repeat' split
    all_goals rfl
  have hw : (parseWait (parseSendFail d)).rbuf = d.rbuf := by
    unfold parseWait parseSendFail
    repeat' split
    all_goals rfl
  unfold parseLine
  split
  · rfl
  · rw [hc, hr, hw]

theorem work_stored (p : Platform) (d : D) (h : Tie d) (hr : d.resetPending = false) :
    (work p d).rbuf = d.rbuf ∨ (work p d).isConnected = true := by
  have hf : Tie (fillLineBuffer d).1 := fill_tied d h
  have hq : (fillLineBuffer d).1.resetPending = false := by simpa using hr
  unfold work
  dsimp only
  split
  · split
    · left; rw [parseLine_rbuf]; simp
    · rename_i h1
      rcases proceed_stored p _ (parseLine_tied p _ hf) (fun _ => parseLine_reset hq (by simpa using h1)) with h2 | h2
      · left; rw [h2, parseLine_rbuf]; simp
      · exact .inr h2
  · have hd : Tie (flushIfDisconnecting (fillLineBuffer d).1) := by
      unfold flushIfDisconnecting
      split
      · exact hf.same (by simp) (by simp) (by simp) (by simp)
      · exact hf
    have h0 : (flushIfDisconnecting (fillLineBuffer d).1).resetPending = false := by
      unfold flushIfDisconnecting
      split <;> simpa using hr
    rcases proceed_stored p _ hd (fun _ => h0) with h2 | h2
    · left; rw [h2]; unfold flushIfDisconnecting; split <;> simp
    · exact .inr h2

/-- A call of `run()` that stores data leaves the device connected. -/
theorem run_stored (p : Platform) (d : D) (ok : Bool) (h : Tie d) :
    (run p d ok).rbuf = d.rbuf ∨ (run p d ok).isConnected = true := by
  unfold run
  split
  · left; unfold tryOpen; split <;> rfl
  split
  · left; simp [handleReset]
  · rename_i h1
    exact work_stored p d h (by simpa using h1)

end Espressif

namespace CC1352P7

theorem act_lasting (d : D) : (act d).rbuf = d.rbuf ∨ (d.snd = .receiving ∧ (act d).cs = d.cs) := by
  unfold act
  cases h : d.snd <;> dsimp only
  case receiving =>
    right
    refine ⟨rfl, ?_⟩
    unfold actReceiving
    split
    · dsimp only; split <;> simp
    · split <;> rfl
  all_goals left
  all_goals first
    | simp; done
    | (simp only [actCipstart]; repeat' split
       all_goals simp; done)
    | (simp only [actConnected]; repeat' split
       all_goals simp; done)
    | (simp only [actCiprecvdata]; repeat' split
       all_goals simp; done)
    | (repeat' split
       all_goals simp; done)

theorem proceed_lasting (p : Platform) (d : D) : (proceed p d).rbuf = d.rbuf ∨
    (d.snd = .receiving ∧ d.rep = .okReply ∧ (proceed p d).cs = d.cs) := by
  unfold proceed
  split
  · exact .inl rfl
  · rename_i h
    have hr : d.rep = .okReply := by
      by_cases e : d.rep = .okReply
      · exact e
      · exact absurd (Or.inr e) h
    split
    · exact .inl rfl
    · unfold sendNext
      split
      · left; simp
      · split
        · left; simp
        · rcases act_lasting d.askSpace with h | ⟨h1, h2⟩
          · left; rw [h]; simp
          · right; exact ⟨h1, hr, by rw [h2]; simp⟩

/-- Data are being fetched. -/
def fetching : Snd → Bool
  | .sendCiprecvdata | .waitReceive | .receiving => true
  | _ => false

/-- The header of a block of data is expected. -/
def heading : Rep → Bool
  | .parseStateCiprecvdata => true
  | _ => false

/-- A reply during which an error message changes the state of the connection. -/
def aside : Rep → Bool
  | _ => false

/-- A state the driver is not in when it expects the header of a block. -/
def never : Snd → Bool
  | _ => false

abbrev Tie : D → Prop := Tied fetching heading aside never

theorem act_tied (d : D) (h : Tie d) (hr : d.resetPending = false) (ho : d.rep = .okReply) : Tie (act d) := by
  have hf : fetching d.snd = true → d.isConnected = true := by
    rcases h with h | h
    · rw [hr] at h; cases h
    · exact fun hq => h.1 (by simp [hq])
  right
  unfold act
  cases hs : d.snd <;> dsimp only <;> rw [hs] at hf
  case connected =>
    unfold actConnected
    try simp only [handleDisconnect]
    (repeat' split) <;> simp_all [fetching, heading, aside, never, Dev.isConnected]
  case receiving =>
    unfold actReceiving
    try simp only [handleDisconnect]
    (repeat' split) <;> simp_all [fetching, heading, aside, never, Dev.isConnected]
  case sendCiprecvdata =>
    unfold actCiprecvdata
    try simp only [handleDisconnect]
    (repeat' split) <;> simp_all [fetching, heading, aside, never, Dev.isConnected]
  case sendCipstart =>
    unfold actCipstart
    try simp only [handleDisconnect]
    (repeat' split) <;> simp_all [fetching, heading, aside, never, Dev.isConnected]
  all_goals first
    | (simp_all [fetching, heading, aside, never, Dev.isConnected]; done)
    | (try simp only [handleConnect, handleDisconnect]
       (repeat' split) <;> simp_all [fetching, heading, aside, never, Dev.isConnected])

theorem parseMac_tied (d : D) (h : Tie d) : Tie (parseMac d) := by
  unfold Tie Tied at h ⊢
  unfold parseMac
  split
  · rcases h with h | ⟨h1, _, _⟩
    · exact .inl h
    · refine .inr ⟨fun hh => h1 ?_, fun hh => by simp [aside] at hh, fun _ => rfl⟩
      simp only [heading, Bool.or_false] at hh
      simp [hh]
  · exact h

theorem parseReply_tied (p : Platform) (d : D) (h : Tie d) : Tie (parseReply p d) := by
  unfold parseReply
  cases hr : d.rep <;> dsimp only
  case okReply => exact h
  case reqMac => exact parseMac_tied d h
  case csq =>
    refine parseMac_tied _ ?_
    unfold parseCsq
    unfold Tie Tied at h ⊢
    repeat' split
    all_goals simp_all [fetching, heading, aside, never, Dev.isConnected]
  case parseStateCiprecvdata =>
    unfold parseCiprecvdata
    unfold Tie Tied at h ⊢
    repeat' split
    all_goals simp_all [fetching, heading, aside, never, Dev.isConnected]

theorem checkState_tied (p : Platform) (d : D) (h : Tie d) : Tie (checkState p d) := by
  unfold checkState
  repeat' split
  all_goals first | exact h.same rfl rfl rfl rfl | exact h

theorem parseLine_tied (p : Platform) (d : D) (h : Tie d) : Tie (parseLine p d).1 := by
  have hw : Tie (parseWait d) := by
    unfold parseWait
    split
    · exact h.same rfl rfl rfl rfl
    · exact h
  unfold parseLine
  split
  · exact .inl rfl
  · exact checkState_tied p _ (parseReply_tied p _ hw)

theorem tied_own : Own Tie where
  reset _ _ := .inr ⟨by simp [resetStates, fetching, heading], by simp [resetStates, aside], by simp [resetStates, heading]⟩
  ext _ _ h := h.same rfl rfl rfl rfl

theorem tied_rep {d e : D} (h : Tie d) (hr : d.resetPending = false) (h1 : e.snd = d.snd) (h2 : heading e.rep = false)
    (h3 : aside e.rep = false) (h4 : e.cs = d.cs) : Tie e := by
  rcases h with h | h
  · rw [hr] at h; cases h
  · refine .inr ⟨fun q => ?_, fun q => ?_, fun q => ?_⟩
    · rw [isConnected_of_cs h4]
      rw [h1, h2, Bool.or_false] at q
      exact h.1 (by simp [q])
    · rw [h3] at q; cases q
    · rw [h2] at q; cases q

theorem tied_sections (p : Platform) : Sections p Tie where
  fail _ h _ := by
    rcases h with h | ⟨h1, _, _⟩
    · exact .inl h
    · exact .inr ⟨fun q => h1 (by simp only [fetching, Bool.false_or] at q; simp [q]), fun _ => rfl, fun _ => rfl⟩
  reset d _ _ := by
    right
    refine ⟨?_, ?_, ?_⟩ <;> simp only [handleReset] <;> (repeat' split) <;> simp [fetching, heading, aside]
  line d s m l _ h _ _ _ _ _ := parseLine_tied p _ (h.same rfl rfl rfl rfl)
  drop _ h _ _ _ := h.same (by simp) (by simp) (by simp) (by simp)
  csq _ h hr _ _ _ _ _ := tied_rep h hr (by simp) rfl rfl (by simp)
  mac _ h hr _ _ _ _ _ := tied_rep h hr (by simp) rfl rfl (by simp)
  act _ h hr _ ho _ := act_tied _ h hr ho

theorem step_tied (p : Platform) (op : Op) {d : D} (h : Inv d ∧ Tie d) : Inv (step p d op) ∧ Tie (step p d op) :=
  ⟨step_inv p op h.1, step_stages (tied_sections p) tied_calls tied_own h.1.1.line h.2 op⟩

theorem proceed_stored (p : Platform) (d : D) (h : Tie d) (hr : d.rep = .okReply → d.resetPending = false) :
    (proceed p d).rbuf = d.rbuf ∨ (proceed p d).isConnected = true := by
  rcases proceed_lasting p d with h1 | ⟨h1, h2, h3⟩
  · exact .inl h1
  · right
    rw [isConnected_of_cs h3]
    rcases h with h | h
    · rw [hr h2] at h; cases h
    · exact h.1 (by simp [h1, fetching])

theorem parseLine_rbuf (p : Platform) (d : D) : (parseLine p d).1.rbuf = d.rbuf := by
  have hm : ∀ d : D, (parseMac d).rbuf = d.rbuf := by
    intro d
    unfold parseMac
    split <;> rfl
  have hr : ∀ d : D, (parseReply p d).rbuf = d.rbuf := by
    intro d
    unfold parseReply
    cases d.rep <;> dsimp only
    case csq =>
      rw [hm]
      unfold parseCsq
      repeat' split
      all_goals simp
    case reqMac => exact hm d
    case parseStateCiprecvdata =>
      unfold parseCiprecvdata
      repeat' split
      all_goals simp
  have hc : ∀ d : D, (checkState p d).rbuf = d.rbuf := by
    intro d
    unfold checkState
    repeat' split
    all_goals rfl
  have hw : (parseWait d).rbuf = d.rbuf := by
    unfold parseWait
    split <;> rfl
  unfold parseLine
  split
  · rfl
  · rw [hc, hr, hw]

theorem work_stored (p : Platform) (d : D) (h : Tie d) (hr : d.resetPending = false) :
    (work p d).rbuf = d.rbuf ∨ (work p d).isConnected = true := by
  have hf : Tie (fillLineBuffer d).1 := h.same (by simp) (by simp) (by simp) (by simp)
  have hq : (fillLineBuffer d).1.resetPending = false := by simpa using hr
  unfold work
  dsimp only
  split
  · split
    · left; rw [parseLine_rbuf]; simp
    · rename_i h1
      rcases proceed_stored p _ (parseLine_tied p _ hf) (fun _ => parseLine_reset hq (by simpa using h1)) with h2 | h2
      · left; rw [h2, parseLine_rbuf]; simp
      · exact .inr h2
  · have hd : Tie (flushIfDisconnecting (fillLineBuffer d).1) := by
      unfold flushIfDisconnecting
      split
      · exact hf.same (by simp) (by simp) (by simp) (by simp)
      · exact hf
    have h0 : (flushIfDisconnecting (fillLineBuffer d).1).resetPending = false := by
      unfold flushIfDisconnecting
      split <;> simpa using hr
    rcases proceed_stored p _ hd (fun _ => h0) with h2 | h2
    · left; rw [h2]; unfold flushIfDisconnecting; split <;> simp
    · exact .inr h2

/-- A call of `run()` that stores data leaves the device connected. -/
theorem run_stored (p : Platform) (d : D) (ok : Bool) (h : Tie d) :
    (run p d ok).rbuf = d.rbuf ∨ (run p d ok).isConnected = true := by
  unfold run
  split
  · left; unfold tryOpen; split <;> rfl
  split
  · rename_i h1 h3
    have a1 : (handleReset d).rbuf = d.rbuf := by simp only [handleReset]; split <;> simp
    have a2 : (handleReset d).resetPending = false := by simp only [handleReset]; split <;> simp
    rw [← a1]
    exact work_stored p _ ((tied_sections p).reset d h h3 ) a2
  · rename_i h1
    exact work_stored p d h (by simpa using h1)

end CC1352P7

end Verif
