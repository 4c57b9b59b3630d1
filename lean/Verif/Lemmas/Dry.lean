import Verif.Lemmas.LinkSim7x00
import Verif.Lemmas.LinkSim800
import Verif.Lemmas.LinkEspressif
import Verif.Lemmas.LinkCC1352P7

/-! While data is received the write buffer is empty; a request to disconnect is taken up with an empty write buffer. -/

namespace Verif

open Dev Spec

variable {S R X : Type} {rx early : S → Bool} {rp rq : R → Bool}

/-- In states with `rx` or `rp` the write buffer is empty and `write()` accepts nothing. -/
def DryInv (rx : S → Bool) (rp : R → Bool) (d : Dev S R X) : Prop :=
  rx d.snd = true ∨ rp d.rep = true → d.wbuf.avail = 0 ∧ d.cs ≠ .connected

/-- No change that matters. -/
structure Quiet (rx early : S → Bool) (rp rq : R → Bool) (d e : Dev S R X) : Prop where
  cs : e.cs = .connected → d.cs = .connected
  wbuf : e.wbuf = d.wbuf
  dry : rx e.snd = true ∨ rp e.rep = true → rx d.snd = true ∨ rp d.rep = true
  soon : rq d.rep = false → early e.snd = true → early d.snd = true
  asked : rq e.rep = true → rq d.rep = true
  disc : rq d.rep = false → e.disconnectPending = d.disconnectPending

theorem Quiet.refl (d : Dev S R X) : Quiet rx early rp rq d d := ⟨id, rfl, id, fun _ => id, id, fun _ => rfl⟩

theorem Quiet.trans {a b c : Dev S R X} (h : Quiet rx early rp rq a b) (k : Quiet rx early rp rq b c) : Quiet rx early rp rq a c := by
  have hq : rq a.rep = false → rq b.rep = false := fun x => by
    cases y : rq b.rep with
    | false => rfl
    | true => rw [h.asked y] at x; cases x
  exact ⟨fun x => h.cs (k.cs x), k.wbuf.trans h.wbuf, fun x => h.dry (k.dry x), fun q x => h.soon q (k.soon (hq q) x),
    fun x => h.asked (k.asked x), fun q => (k.disc (hq q)).trans (h.disc q)⟩

theorem DryInv.quiet {d e : Dev S R X} (h : DryInv rx rp d) (k : Quiet rx early rp rq d e) : DryInv rx rp e := fun x => by
  obtain ⟨a, b⟩ := h (k.dry x)
  exact ⟨by rw [k.wbuf]; exact a, fun y => b (k.cs y)⟩

theorem DryInv.same {d e : Dev S R X} (h : DryInv rx rp d) (h1 : e.snd = d.snd) (h2 : e.rep = d.rep) (h3 : e.wbuf = d.wbuf)
    (h4 : e.cs = d.cs) : DryInv rx rp e := by
  unfold DryInv at *
  rw [h1, h2, h3, h4]; exact h

theorem DryInv.leave {e : Dev S R X} (h1 : rx e.snd = false) (h2 : rp e.rep = false) : DryInv rx rp e := fun x => by
  rcases x with x | x
  · rw [h1] at x; cases x
  · rw [h2] at x; cases x

theorem dry_calls : Calls (DryInv (S := S) (R := R) (X := X) rx rp) where
  io _ _ _ _ _ h := h.same rfl rfl rfl rfl
  isOpen _ _ h := h.same rfl rfl rfl rfl
  host _ _ _ _ h := h.same rfl rfl rfl rfl
  conn _ h _ _ := h.same rfl rfl rfl rfl
  disc0 _ h _ := h.same rfl rfl rfl rfl
  disc _ h _ := h.same rfl rfl rfl rfl
  write0 _ h _ := h.same rfl rfl rfl rfl
  write d bs h hc := fun x => absurd hc (h x).2
  read _ _ h := h.same rfl rfl rfl rfl
  rssi _ h := h.same rfl rfl rfl rfl
  userTx _ _ _ _ h := h.same rfl rfl rfl rfl
  userRx _ _ _ _ h := h.same rfl rfl rfl rfl

theorem SimDev.parseDnsReply_conn {S R : Type} (d : SimDev S R) :
    d.parseDnsReply.1.cs = .connected → d.cs = .connected := by
  unfold SimDev.parseDnsReply
  dsimp only
  (repeat' split) <;> simp

namespace Sim7x00

/-- States of reception. -/
def rxSnd : Snd → Bool
  | .sendCiprxget4 | .sendCiprxget2 | .waitReceive | .receiving | .ipUnconnected => true
  | _ => false

def rxRep : Rep → Bool
  | .ciprxget2 => true
  | _ => false

abbrev Dry : D → Prop := DryInv rxSnd rxRep
abbrev Quiet : D → D → Prop := Verif.Quiet rxSnd Sim7x00.early rxRep fun r => r == .netopen

theorem quiet_parseLine (p : Platform) (d : D) : Quiet d (parseLine p d).1 := by
  have h1 : Quiet d (parseWait d).1 := by
    unfold parseWait
    (repeat' split) <;> constructor <;> simp
  have h2 : ∀ d, Quiet d (parseReply p d).1 := by
    intro d
    have hd := SimDev.parseDnsReply_conn d
    unfold parseReply
    split <;> (try dsimp only) <;> (repeat' split) <;> constructor <;> simp_all [rxSnd, rxRep, Sim7x00.early]
  have h3 : ∀ d, Quiet d (checkState d) := by
    intro d
    unfold checkState
    split <;> constructor <;> simp
  unfold parseLine
  dsimp only
  split
  · exact h1
  · split
    · exact h1.trans (h2 _)
    · exact (h1.trans (h2 _)).trans (h3 _)

theorem dry_act {d : D} (h : Dry d) (hp : d.rep = .okReply) : Dry (act d) := by
  have hr : rxSnd d.snd = true → d.wbuf.avail = 0 ∧ d.cs ≠ .connected := fun x => h (Or.inl x)
  cases hs : d.snd
  case connected =>
    simp only [act, hs, actConnected]
    split
    · (repeat' split) <;> exact .leave (by simp [rxSnd, hs]) (by simp [rxRep, hp])
    · rename_i h0
      split
      · exact fun _ => ⟨by simpa [Ring.bytesAvailable] using h0, by simp⟩
      · (repeat' split) <;> exact .leave (by simp only [handleDisconnect]; (repeat' split) <;> simp [rxSnd, hs]) (by simp [rxRep, hp])
  case sendCiprxget4 =>
    have := hr (by rw [hs]; rfl)
    simp only [act, hs]
    exact fun _ => ⟨by simpa using this.1, by simpa using this.2⟩
  case sendCiprxget2 =>
    have := hr (by rw [hs]; rfl)
    simp only [act, hs, actCiprxget2]
    (repeat' split) <;> exact fun _ => ⟨by simpa using this.1, by simpa using this.2⟩
  case waitReceive => simpa only [act, hs] using h
  case receiving =>
    have := hr (by rw [hs]; rfl)
    simp only [act, hs, actReceiving]
    (repeat' split) <;> exact fun _ => ⟨by simpa using this.1, by simpa using this.2⟩
  case ipUnconnected =>
    have := hr (by rw [hs]; rfl)
    simp only [act, hs]
    split <;> exact fun _ => ⟨by simpa using this.1, by simp⟩
  case sendCgsockcont =>
    refine .leave ?_ ?_ <;> simp only [act, hs, actCgsockcont] <;> (repeat' split) <;> simp [rxSnd, rxRep, hp]
  case sendDnsQuery =>
    refine .leave ?_ ?_ <;> simp only [act, hs] <;> split <;> simp [rxSnd, rxRep, hp, hs]
  all_goals
    refine .leave ?_ ?_ <;> simp only [act, hs, actCipopen, handleConnect, handleDisconnect] <;> (repeat' split) <;> simp [rxSnd, rxRep, hp, hs]

theorem dry_sections (p : Platform) : Sections p Dry where
  fail d h _ := fun x => h (by rcases x with x | x; · simp [rxSnd] at x
                               · exact Or.inr x)
  reset d h _ _ := .leave (by simp only [handleReset]; split <;> rfl) (by simp [handleReset, rxRep])
  line d s m l _ h _ _ _ _ := DryInv.quiet (h.same (e := d.gotLine s m d.rep l) rfl rfl rfl rfl) (quiet_parseLine p _)
  drop d h _ _ _ := h.same (by simp) (by simp) (by simp) (by simp)
  csq d h _ _ _ _ _ _ := fun x => h (by simpa [rxRep] using Or.inl x)
  ident d h _ _ _ _ _ := fun x => by simpa using h (Or.inl (by simpa [rxRep] using x))
  identNone d h _ := h.same (by simp) (by simp) (by simp) (by simp)
  act d h _ _ hp _ := dry_act h hp

theorem dry_own : Own Dry where
  reset _ _ := .leave rfl rfl
  ext _ _ h := h.same rfl rfl rfl rfl
  lock _ h _ _ := h.same rfl rfl rfl rfl
  unlock _ h := h.same rfl rfl rfl rfl

/-- A request to disconnect is taken up when nothing is left to be sent. -/
theorem taken_act {d : D} (h : Dry d) (he : Sim7x00.early d.snd = false) (h1 : d.disconnectPending = true)
    (h2 : (act d).disconnectPending = false) : d.wbuf.avail = 0 := by
  have hr : rxSnd d.snd = true → d.wbuf.avail = 0 := fun x => (h (Or.inl x)).1
  cases hs : d.snd <;> simp only [hs, Sim7x00.early, reduceCtorEq] at he
  case connected =>
    simp only [act, hs, actConnected] at h2
    split at h2
    · (repeat' split at h2) <;> simp [h1] at h2
    · rename_i h0
      simpa [Ring.bytesAvailable] using h0
  case sendCiprxget4 | sendCiprxget2 | waitReceive | receiving | ipUnconnected => exact hr (by rw [hs]; rfl)
  all_goals (simp only [act, hs] at h2; (repeat' split at h2) <;> simp [h1] at h2)

theorem taken (p : Platform) {d : D} (hl : LinkInv d) (hd : Dry d) (ok : Bool) (hc : isConn d.cs = true)
    (h1 : d.disconnectPending = true) (h2 : (run p d ok).disconnectPending = false) : d.wbuf.avail = 0 := by
  have he : Sim7x00.early d.snd = false := by
    cases h : Sim7x00.early d.snd with
    | false => rfl
    | true => rw [hl.early h] at hc; cases hc
  have hr : d.resetPending = false := by
    cases h : d.resetPending with
    | false => rfl
    | true => rw [hl.reset h] at hc; cases hc
  have hq : (d.rep == .netopen) = false := by
    cases h : d.rep == .netopen with
    | false => rfl
    | true => rw [hl.rep (Or.inl (by simpa using h))] at hc; cases hc
  have hp : ∀ e : D, Quiet d e → (proceed e).disconnectPending = false → d.wbuf.avail = 0 := by
    intro e k hx
    have e1 := (k.disc hq).trans h1
    have e2 : Sim7x00.early e.snd = false := by
      cases h : Sim7x00.early e.snd with
      | false => rfl
      | true => rw [k.soon hq h] at he; cases he
    have e3 : Dry e := hd.quiet k
    unfold proceed at hx
    split at hx
    · rw [e1] at hx; cases hx
    · split at hx
      · simp [e1] at hx
      · unfold sendNext at hx
        split at hx
        · simp [e1] at hx
        · dsimp only at hx
          split at hx
          · simp [e1] at hx
          · have := taken_act (d := (SimDev.sendIDRequest e.askSpace iccidCommand).1)
              (e3.same (by simp) (by simp) (by simp) (by simp)) (by simpa using e2) (by simpa using e1) hx
            simpa [k.wbuf] using this
  have hf : Quiet d d.fillLineBuffer.1 := by constructor <;> simp
  unfold run at h2
  split at h2
  · unfold tryOpen at h2; split at h2 <;> simp [h1] at h2
  · split at h2
    · rw [h1] at h2; cases h2
    · rw [if_neg (by simp [hr])] at h2
      unfold work at h2
      dsimp only at h2
      split at h2
      · split at h2
        · have := ((hf.trans (quiet_parseLine p _)).disc hq).trans h1
          rw [this] at h2; cases h2
        · exact hp _ (hf.trans (quiet_parseLine p _)) h2
      · refine hp _ (hf.trans ?_) h2
        unfold flushIfDisconnecting
        split
        · constructor <;> simp
        · exact .refl _

end Sim7x00

namespace Sim800

/-- States of reception. -/
def rxSnd : Snd → Bool
  | .sendCiprxget4 | .sendCiprxget2 | .waitReceive | .receiving | .ipUnconnected => true
  | _ => false

def rxRep : Rep → Bool
  | .ciprxget2 => true
  | _ => false

abbrev Dry : D → Prop := DryInv rxSnd rxRep
abbrev Quiet : D → D → Prop := Verif.Quiet rxSnd Sim800.early rxRep fun r => r == .cipstart

theorem quiet_parseLine (p : Platform) (d : D) : Quiet d (parseLine p d).1 := by
  have h1 : Quiet d (parseWait d) := by
    unfold parseWait
    (repeat' split) <;> constructor <;> simp
  have h2 : ∀ d, Quiet d (parseReply p d) := by
    intro d
    have hd := SimDev.parseDnsReply_conn d
    unfold parseReply
    split <;> (try dsimp only) <;> (repeat' split) <;> constructor <;> simp_all [rxSnd, rxRep, Sim800.early, handleDisconnect]
  have h3 : ∀ d, Quiet d (checkState d) := by
    intro d
    unfold checkState
    split <;> constructor <;> simp
  unfold parseLine
  split
  · constructor <;> simp
  · exact (h1.trans (h2 _)).trans (h3 _)

theorem dry_act {d : D} (h : Dry d) (hp : d.rep = .okReply) : Dry (act d) := by
  have hr : rxSnd d.snd = true → d.wbuf.avail = 0 ∧ d.cs ≠ .connected := fun x => h (Or.inl x)
  cases hs : d.snd
  case connected =>
    simp only [act, hs, actConnected]
    split
    · (repeat' split) <;> exact .leave (by simp [rxSnd, hs]) (by simp [rxRep, hp])
    · rename_i h0
      split
      · exact fun _ => ⟨by simpa [Ring.bytesAvailable] using h0, by simp⟩
      · (repeat' split) <;> exact .leave (by simp only [handleDisconnect]; (repeat' split) <;> simp [rxSnd, hs]) (by simp [rxRep, hp])
  case sendCiprxget4 =>
    have := hr (by rw [hs]; rfl)
    simp only [act, hs]
    exact fun _ => ⟨by simpa using this.1, by simpa using this.2⟩
  case sendCiprxget2 =>
    have := hr (by rw [hs]; rfl)
    simp only [act, hs, actCiprxget2]
    (repeat' split) <;> exact fun _ => ⟨by simpa using this.1, by simpa using this.2⟩
  case waitReceive => simpa only [act, hs] using h
  case receiving =>
    have := hr (by rw [hs]; rfl)
    simp only [act, hs, actReceiving]
    (repeat' split) <;> exact fun _ => ⟨by simpa using this.1, by simpa using this.2⟩
  case ipUnconnected =>
    have := hr (by rw [hs]; rfl)
    simp only [act, hs]
    split <;> exact fun _ => ⟨by simpa using this.1, by simp⟩
  case sendDnsQuery =>
    refine .leave ?_ ?_ <;> simp only [act, hs] <;> split <;> simp [rxSnd, rxRep, hp, hs]
  all_goals
    refine .leave ?_ ?_ <;> simp only [act, hs, actCipstart, actCstt, handleConnect, handleDisconnect] <;> (repeat' split) <;> simp [rxSnd, rxRep, hp, hs]

theorem dry_sections (p : Platform) : Sections p Dry where
  fail d h _ := fun x => h (by rcases x with x | x; · simp [rxSnd] at x
                               · exact Or.inr x)
  reset d h _ _ := by
    refine .leave ?_ ?_ <;> unfold handleReset SimDev.connect Dev.ipConnect <;> dsimp only <;> (repeat' split) <;>
      (try simp only []) <;> (repeat' split) <;> first | rfl | simp [rxSnd, rxRep]
  line d s m l _ h _ _ _ _ := DryInv.quiet (h.same (e := d.gotLine s m d.rep l) rfl rfl rfl rfl) (quiet_parseLine p _)
  drop d h _ _ _ := h.same (by simp) (by simp) (by simp) (by simp)
  csq d h _ _ _ _ _ _ := fun x => h (by simpa [rxRep] using Or.inl x)
  ident d h _ _ _ _ _ := fun x => by simpa using h (Or.inl (by simpa [rxRep] using x))
  identNone d h _ := h.same (by simp) (by simp) (by simp) (by simp)
  act d h _ _ hp _ := dry_act h hp

theorem dry_own : Own Dry where
  reset _ _ := .leave rfl rfl
  ext _ _ h := h.same rfl rfl rfl rfl
  lock _ h _ _ := h.same rfl rfl rfl rfl
  unlock _ h := h.same rfl rfl rfl rfl

/-- A request to disconnect is taken up when nothing is left to be sent. -/
theorem taken_act {d : D} (h : Dry d) (he : Sim800.early d.snd = false) (h1 : d.disconnectPending = true)
    (h2 : (act d).disconnectPending = false) : d.wbuf.avail = 0 := by
  have hr : rxSnd d.snd = true → d.wbuf.avail = 0 := fun x => (h (Or.inl x)).1
  cases hs : d.snd <;> simp only [hs, Sim800.early, reduceCtorEq] at he
  case connected =>
    simp only [act, hs, actConnected] at h2
    split at h2
    · (repeat' split at h2) <;> simp [h1] at h2
    · rename_i h0
      simpa [Ring.bytesAvailable] using h0
  case sendCiprxget4 | sendCiprxget2 | waitReceive | receiving | ipUnconnected => exact hr (by rw [hs]; rfl)
  all_goals (simp only [act, hs] at h2; (repeat' split at h2) <;> simp [h1] at h2)

theorem taken (p : Platform) {d : D} (hl : LinkInv d) (hd : Dry d) (ok : Bool) (hc : isConn d.cs = true)
    (h1 : d.disconnectPending = true) (h2 : (run p d ok).disconnectPending = false) : d.wbuf.avail = 0 := by
  have he : Sim800.early d.snd = false := by
    cases h : Sim800.early d.snd with
    | false => rfl
    | true => rw [hl.early h] at hc; cases hc
  have hr : d.resetPending = false := by
    cases h : d.resetPending with
    | false => rfl
    | true => rw [hl.reset h] at hc; cases hc
  have hq : (d.rep == .cipstart) = false := by
    cases h : d.rep == .cipstart with
    | false => rfl
    | true => rw [hl.rep (Or.inr (by simpa using h))] at hc; cases hc
  have hp : ∀ e : D, Quiet d e → (proceed e).disconnectPending = false → d.wbuf.avail = 0 := by
    intro e k hx
    have e1 := (k.disc hq).trans h1
    have e2 : Sim800.early e.snd = false := by
      cases h : Sim800.early e.snd with
      | false => rfl
      | true => rw [k.soon hq h] at he; cases he
    have e3 : Dry e := hd.quiet k
    unfold proceed at hx
    split at hx
    · rw [e1] at hx; cases hx
    · split at hx
      · simp [e1] at hx
      · unfold sendNext at hx
        split at hx
        · simp [e1] at hx
        · dsimp only at hx
          split at hx
          · simp [e1] at hx
          · have := taken_act (d := (SimDev.sendIDRequest e.askSpace iccidCommand).1)
              (e3.same (by simp) (by simp) (by simp) (by simp)) (by simpa using e2) (by simpa using e1) hx
            simpa [k.wbuf] using this
  have hf : Quiet d d.fillLineBuffer.1 := by constructor <;> simp
  unfold run at h2
  split at h2
  · unfold tryOpen at h2; split at h2 <;> simp [h1] at h2
  · split at h2
    · rw [h1] at h2; cases h2
    · rw [if_neg (by simp [hr])] at h2
      unfold work at h2
      dsimp only at h2
      split at h2
      · split at h2
        · have := ((hf.trans (quiet_parseLine p _)).disc hq).trans h1
          rw [this] at h2; cases h2
        · exact hp _ (hf.trans (quiet_parseLine p _)) h2
      · refine hp _ (hf.trans ?_) h2
        unfold flushIfDisconnecting
        split
        · constructor <;> simp
        · exact .refl _

end Sim800

namespace Espressif

/-- States of reception. -/
def rxSnd : Snd → Bool
  | .sendCiprecvdata | .waitReceive | .receiving => true
  | _ => false

def rxRep : Rep → Bool
  | .waitCiprecvdata | .parseStateCiprecvdata => true
  | _ => false

abbrev Dry : D → Prop := DryInv rxSnd rxRep
abbrev Quiet : D → D → Prop := Verif.Quiet rxSnd Espressif.early rxRep fun _ => false

theorem quiet_parseLine (p : Platform) (d : D) : Quiet d (parseLine p d).1 := by
  have h0 : Quiet d (parseSendFail d) := by
    unfold parseSendFail
    split <;> constructor <;> simp
  have h1 : ∀ d, Quiet d (parseWait d) := by
    intro d
    unfold parseWait
    (repeat' split) <;> constructor <;> simp
  have h2 : ∀ d, Quiet d (parseReply p d) := by
    intro d
    unfold parseReply
    split <;> (try unfold parseMac) <;> (try dsimp only) <;> (repeat' split) <;> constructor <;> simp_all [rxSnd, rxRep, Espressif.early]
  have h3 : ∀ d, Quiet d (checkState p d) := by
    intro d
    unfold checkState
    (repeat' split) <;> constructor <;> simp [rxSnd, Espressif.early] <;> (try (intro h; exact Or.inr h))
  unfold parseLine
  split
  · constructor <;> simp
  · exact ((h0.trans (h1 _)).trans (h2 _)).trans (h3 _)

theorem dry_act {d : D} (h : Dry d) (hp : d.rep = .okReply) : Dry (act d) := by
  have hr : rxSnd d.snd = true → d.wbuf.avail = 0 ∧ d.cs ≠ .connected := fun x => h (Or.inl x)
  cases hs : d.snd
  case connected =>
    simp only [act, hs, actConnected]
    split
    · (repeat' split) <;> exact .leave (by simp [rxSnd, hs]) (by simp [rxRep, hp])
    · rename_i h0
      split
      · exact fun _ => ⟨by simpa [Ring.bytesAvailable] using h0, by simp⟩
      · exact .leave (by simp only [handleDisconnect]; (repeat' split) <;> simp [rxSnd, hs]) (by simp only [handleDisconnect]; (repeat' split) <;> simp [rxRep, hp])
  case sendCiprecvdata =>
    have := hr (by rw [hs]; rfl)
    simp only [act, hs, actCiprecvdata]
    (repeat' split) <;> exact fun _ => ⟨by simpa using this.1, by simpa using this.2⟩
  case waitReceive => simpa only [act, hs] using h
  case receiving =>
    have := hr (by rw [hs]; rfl)
    simp only [act, hs, actReceiving]
    (repeat' split) <;> exact fun _ => ⟨by simpa using this.1, by simpa using this.2⟩
  all_goals
    refine .leave ?_ ?_ <;> simp only [act, hs, actCipstart, actCwjap, handleConnect, handleDisconnect] <;> (repeat' split) <;> simp [rxSnd, rxRep, hp, hs]

theorem dry_sections (p : Platform) : Sections p Dry where
  fail d h _ := fun x => h (by rcases x with x | x; · simp [rxSnd] at x
                               · exact Or.inr x)
  reset d h _ := .leave (by simp only [handleReset]; split <;> rfl) (by simp [handleReset, rxRep])
  line d s m l r _ h _ _ hr _ _ _ := by
    refine DryInv.quiet (d := d.gotLine s m r l) (fun x => h ?_) (quiet_parseLine p _)
    rcases x with x | x
    · exact Or.inl x
    · rcases hr with hr | ⟨hr, -, -⟩
      · exact Or.inr (by rw [← hr]; exact x)
      · exact Or.inr (by rw [hr]; rfl)
  drop d h _ _ _ := h.same (by simp) (by simp) (by simp) (by simp)
  csq d h _ _ _ _ _ _ := fun x => h (by simpa [rxRep] using Or.inl x)
  mac d h _ _ _ _ _ _ := fun x => h (by simpa [rxRep] using Or.inl x)
  act d h _ _ hp _ := dry_act h hp

theorem dry_own : Own Dry where
  reset _ _ := .leave rfl rfl
  ext _ _ h := h.same rfl rfl rfl rfl
  ub _ h := h.same rfl rfl rfl rfl

/-- A request to disconnect is taken up when nothing is left to be sent. -/
theorem taken_act {d : D} (h : Dry d) (he : Espressif.early d.snd = false) (h1 : d.disconnectPending = true)
    (h2 : (act d).disconnectPending = false) : d.wbuf.avail = 0 := by
  have hr : rxSnd d.snd = true → d.wbuf.avail = 0 := fun x => (h (Or.inl x)).1
  cases hs : d.snd <;> simp only [hs, Espressif.early, reduceCtorEq] at he
  case connected =>
    simp only [act, hs, actConnected] at h2
    split at h2
    · (repeat' split at h2) <;> simp [h1] at h2
    · rename_i h0
      simpa [Ring.bytesAvailable] using h0
  case sendCiprecvdata | waitReceive | receiving => exact hr (by rw [hs]; rfl)
  all_goals (simp only [act, hs] at h2; (repeat' split at h2) <;> simp [h1] at h2)

theorem fillLineBuffer_rep' (d : D) : (fillLineBuffer d).1.rep = d.rep ∨ d.rep = .waitCiprecvdata := by
  by_cases h : d.rep = .waitCiprecvdata
  · exact Or.inr h
  · refine Or.inl (SimDev.fillLine_rep_const _ _ ?_)
    intro m k c x hx
    unfold lineStop at hx
    split at hx
    · exact (Option.some.inj hx).symm
    · rw [if_neg (fun q => h q.1)] at hx; cases hx

theorem taken (p : Platform) {d : D} (hl : LinkInv d) (hd : Dry d) (ok : Bool) (hc : isConn d.cs = true)
    (h1 : d.disconnectPending = true) (h2 : (run p d ok).disconnectPending = false) : d.wbuf.avail = 0 := by
  have he : Espressif.early d.snd = false := by
    cases h : Espressif.early d.snd with
    | false => rfl
    | true => rw [hl.early h] at hc; cases hc
  have hr : d.resetPending = false := by
    cases h : d.resetPending with
    | false => rfl
    | true => rw [hl.reset h] at hc; cases hc
  have hp : ∀ e : D, Quiet d e → (proceed p e).disconnectPending = false → d.wbuf.avail = 0 := by
    intro e k hx
    have e1 := (k.disc rfl).trans h1
    have e2 : Espressif.early e.snd = false := by
      cases h : Espressif.early e.snd with
      | false => rfl
      | true => rw [k.soon rfl h] at he; cases he
    have e3 : Dry e := hd.quiet k
    unfold proceed at hx
    split at hx
    · rw [e1] at hx; cases hx
    · split at hx
      · simp [e1] at hx
      · unfold sendNext at hx
        split at hx
        · simp [e1] at hx
        · split at hx
          · simp [e1] at hx
          · have := taken_act (d := e.askSpace)
              (e3.same (by simp) (by simp) (by simp) (by simp)) (by simpa using e2) (by simpa using e1) hx
            simpa [k.wbuf] using this
  have hf : Quiet d (fillLineBuffer d).1 := by
    refine ⟨by simp, by simp, ?_, by simp, by simp, by simp⟩
    rcases fillLineBuffer_rep' d with h | h
    · simp [h]
    · simp [h, rxRep]
  unfold run at h2
  split at h2
  · unfold tryOpen at h2; split at h2 <;> simp [h1] at h2
  · rw [if_neg (by simp [hr])] at h2
    unfold work at h2
    dsimp only at h2
    split at h2
    · split at h2
      · have := ((hf.trans (quiet_parseLine p _)).disc rfl).trans h1
        rw [this] at h2; cases h2
      · exact hp _ (hf.trans (quiet_parseLine p _)) h2
    · refine hp _ (hf.trans ?_) h2
      unfold flushIfDisconnecting
      split
      · constructor <;> simp
      · exact .refl _

end Espressif

namespace CC1352P7

/-- States of reception. -/
def rxSnd : Snd → Bool
  | .sendCiprecvdata | .waitReceive | .receiving => true
  | _ => false

def rxRep : Rep → Bool
  | .parseStateCiprecvdata => true
  | _ => false

abbrev Dry : D → Prop := DryInv rxSnd rxRep
abbrev Quiet : D → D → Prop := Verif.Quiet rxSnd CC1352P7.early rxRep fun _ => false

theorem quiet_parseLine (p : Platform) (d : D) : Quiet d (parseLine p d).1 := by
  have h1 : ∀ d, Quiet d (parseWait d) := by
    intro d
    unfold parseWait
    (repeat' split) <;> constructor <;> simp
  have h2 : ∀ d, Quiet d (parseReply p d) := by
    intro d
    unfold parseReply
    split <;> (try unfold parseMac) <;> (try dsimp only) <;> (repeat' split) <;> constructor <;> simp_all [rxSnd, rxRep, CC1352P7.early]
  have h3 : ∀ d, Quiet d (checkState p d) := by
    intro d
    unfold checkState
    (repeat' split) <;> constructor <;> simp [rxSnd, CC1352P7.early] <;> (try (intro h; exact Or.inr h))
  unfold parseLine
  split
  · constructor <;> simp
  · exact ((h1 _).trans (h2 _)).trans (h3 _)

theorem dry_act {d : D} (h : Dry d) (hp : d.rep = .okReply) : Dry (act d) := by
  have hr : rxSnd d.snd = true → d.wbuf.avail = 0 ∧ d.cs ≠ .connected := fun x => h (Or.inl x)
  cases hs : d.snd
  case connected =>
    simp only [act, hs, actConnected]
    split
    · (repeat' split) <;> exact .leave (by simp [rxSnd, hs]) (by simp [rxRep, hp])
    · rename_i h0
      split
      · exact fun _ => ⟨by simpa [Ring.bytesAvailable] using h0, by simp⟩
      · exact .leave (by simp only [handleDisconnect]; (repeat' split) <;> simp [rxSnd, hs]) (by simp only [handleDisconnect]; (repeat' split) <;> simp [rxRep, hp])
  case sendCiprecvdata =>
    have := hr (by rw [hs]; rfl)
    simp only [act, hs, actCiprecvdata]
    (repeat' split) <;> exact fun _ => ⟨by simpa using this.1, by simpa using this.2⟩
  case waitReceive => simpa only [act, hs] using h
  case receiving =>
    have := hr (by rw [hs]; rfl)
    simp only [act, hs, actReceiving]
    (repeat' split) <;> exact fun _ => ⟨by simpa using this.1, by simpa using this.2⟩
  all_goals
    refine .leave ?_ ?_ <;> simp only [act, hs, actCipstart, handleConnect, handleDisconnect] <;> (repeat' split) <;> simp [rxSnd, rxRep, hp, hs]

theorem dry_sections (p : Platform) : Sections p Dry where
  fail d h _ := fun x => h (by rcases x with x | x; · simp [rxSnd] at x
                               · exact Or.inr x)
  reset d h _ := by
    refine .leave ?_ ?_ <;> unfold handleReset Dev.ipConnect <;> dsimp only <;> (repeat' split) <;> first | rfl | simp [rxSnd, rxRep]
  line d s m l _ h _ _ _ _ _ := DryInv.quiet (h.same (e := d.gotLine s m d.rep l) rfl rfl rfl rfl) (quiet_parseLine p _)
  drop d h _ _ _ := h.same (by simp) (by simp) (by simp) (by simp)
  csq d h _ _ _ _ _ _ := fun x => h (by simpa [rxRep] using Or.inl x)
  mac d h _ _ _ _ _ _ := fun x => h (by simpa [rxRep] using Or.inl x)
  act d h _ _ hp _ := dry_act h hp

theorem dry_own : Own Dry where
  reset _ _ := .leave rfl rfl
  ext _ _ h := h.same rfl rfl rfl rfl

/-- A request to disconnect is taken up when nothing is left to be sent. -/
theorem taken_act {d : D} (h : Dry d) (he : CC1352P7.early d.snd = false) (h1 : d.disconnectPending = true)
    (h2 : (act d).disconnectPending = false) : d.wbuf.avail = 0 := by
  have hr : rxSnd d.snd = true → d.wbuf.avail = 0 := fun x => (h (Or.inl x)).1
  cases hs : d.snd <;> simp only [hs, CC1352P7.early, reduceCtorEq] at he
  case connected =>
    simp only [act, hs, actConnected] at h2
    split at h2
    · (repeat' split at h2) <;> simp [h1] at h2
    · rename_i h0
      simpa [Ring.bytesAvailable] using h0
  case sendCiprecvdata | waitReceive | receiving => exact hr (by rw [hs]; rfl)
  all_goals (simp only [act, hs] at h2; (repeat' split at h2) <;> simp [h1] at h2)

theorem taken (p : Platform) {d : D} (hl : LinkInv d) (hd : Dry d) (ok : Bool) (hc : isConn d.cs = true)
    (h1 : d.disconnectPending = true) (h2 : (run p d ok).disconnectPending = false) : d.wbuf.avail = 0 := by
  have he : CC1352P7.early d.snd = false := by
    cases h : CC1352P7.early d.snd with
    | false => rfl
    | true => rw [hl.early h] at hc; cases hc
  have hr : d.resetPending = false := by
    cases h : d.resetPending with
    | false => rfl
    | true => rw [hl.reset h] at hc; cases hc
  have hp : ∀ e : D, Quiet d e → (proceed p e).disconnectPending = false → d.wbuf.avail = 0 := by
    intro e k hx
    have e1 := (k.disc rfl).trans h1
    have e2 : CC1352P7.early e.snd = false := by
      cases h : CC1352P7.early e.snd with
      | false => rfl
      | true => rw [k.soon rfl h] at he; cases he
    have e3 : Dry e := hd.quiet k
    unfold proceed at hx
    split at hx
    · rw [e1] at hx; cases hx
    · split at hx
      · simp [e1] at hx
      · unfold sendNext at hx
        split at hx
        · simp [e1] at hx
        · split at hx
          · simp [e1] at hx
          · have := taken_act (d := e.askSpace)
              (e3.same (by simp) (by simp) (by simp) (by simp)) (by simpa using e2) (by simpa using e1) hx
            simpa [k.wbuf] using this
  have hf : Quiet d (fillLineBuffer d).1 := by constructor <;> simp
  unfold run at h2
  split at h2
  · unfold tryOpen at h2; split at h2 <;> simp [h1] at h2
  · rw [if_neg (by simp [hr])] at h2
    unfold work at h2
    dsimp only at h2
    split at h2
    · split at h2
      · have := ((hf.trans (quiet_parseLine p _)).disc rfl).trans h1
        rw [this] at h2; cases h2
      · exact hp _ (hf.trans (quiet_parseLine p _)) h2
    · refine hp _ (hf.trans ?_) h2
      unfold flushIfDisconnecting
      split
      · constructor <;> simp
      · exact .refl _

end CC1352P7

end Verif
