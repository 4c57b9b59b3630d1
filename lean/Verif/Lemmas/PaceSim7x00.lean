import Verif.Lemmas.LinkSim7x00

/-!
# How long a SIM7x00 driver sleeps between two runs
-/

namespace Verif
namespace Sim7x00

open Dev

/-- The delay the driver asks for is one of four values; it is zero from the connection on. -/
structure Paced (d : D) : Prop where
  link : LinkInv d
  all : d.delay ∈ [0, 10, 2000, 4000]
  fast : isConn d.cs = true ∨ late d.snd = true ∨ d.rep = .ciprxget2 → d.delay = 0

theorem Paced.keep {d e : D} (h : Paced d) (hl : LinkInv e) (h1 : e.delay = d.delay)
    (h2 : isConn e.cs = true ∨ late e.snd = true ∨ e.rep = .ciprxget2 →
      isConn d.cs = true ∨ late d.snd = true ∨ d.rep = .ciprxget2) : Paced e :=
  ⟨hl, by rw [h1]; exact h.all, fun x => by rw [h1]; exact h.fast (h2 x)⟩

theorem Paced.slow {e : D} (hl : LinkInv e) (h1 : e.delay ∈ [0, 10, 2000, 4000])
    (h2 : isConn e.cs = false) (h3 : Sim7x00.late e.snd = false) (h4 : e.rep ≠ .ciprxget2) :
    Paced e :=
  ⟨hl, h1, fun x => by rcases x with x | x | x <;> simp_all⟩

theorem Paced.quick {e : D} (hl : LinkInv e) (h1 : e.delay = 0) : Paced e :=
  ⟨hl, by simp [h1], fun _ => h1⟩

theorem paced_act {d : D} (h : Paced d) (hr : d.resetPending = false) (hw : d.wait = none)
    (hp : d.rep = .okReply) (hs : 20 ≤ d.ser.txFree) : Paced (act d) := by
  have hl := linkInv_act h.link hr hw hp hs
  cases hsnd : d.snd
  case notConnected =>
    apply Paced.slow hl <;> simp [act, hsnd, hp, isConn, handleConnect_snd] <;>
      (split <;> simp [late])
  case connecting => apply Paced.slow hl <;> simp [act, hsnd, hp, isConn, late]
  case sendNetopen =>
    have hc := h.link.early (by rw [hsnd]; rfl)
    cases hd : d.disconnectPending
    · apply Paced.slow hl <;> simp [act, hsnd, hd, hc, late]
    · refine h.keep hl (by simp [act, hsnd, hd]) ?_
      simp [act, hsnd, hd, hp, late, handleDisconnect_snd]
      try exact Or.inl
  case finalizeConnect => exact Paced.quick hl (by simp [act, hsnd])
  case sendCgsockcont =>
    have e : act d = actCgsockcont d := by simp only [act, hsnd]
    rw [e] at hl ⊢
    exact h.keep hl (by simp only [actCgsockcont]; split <;> simp)
      (by simp only [actCgsockcont]; split <;> simp [hp, late] <;> exact Or.inl)
  case sendDnsQuery =>
    exact h.keep hl (by simp only [act, hsnd]; split <;> simp)
      (by simp only [act, hsnd]; split <;> simp [hp, late] <;> (try exact Or.inl) <;> simp [hsnd])
  case sendCipopen =>
    have e : act d = actCipopen d := by simp only [act, hsnd]
    rw [e] at hl ⊢
    exact h.keep hl (by unfold actCipopen; dsimp only; split <;> simp)
      (by unfold actCipopen; dsimp only; split <;> simp [hp, late] <;> exact Or.inl)
  case connected =>
    have e : act d = actConnected d := by simp only [act, hsnd]
    have h0 := h.fast (Or.inr (Or.inl (by rw [hsnd]; rfl)))
    rw [e] at hl ⊢
    refine Paced.quick hl ?_
    unfold actConnected
    dsimp only
    (repeat' split) <;> simp [h0]
  case sendCiprxget2 =>
    have e : act d = actCiprxget2 d := by simp only [act, hsnd]
    have h0 := h.fast (Or.inr (Or.inl (by rw [hsnd]; rfl)))
    rw [e] at hl ⊢
    refine Paced.quick hl ?_
    unfold actCiprxget2
    dsimp only
    (repeat' split) <;> simp [h0]
  case receiving =>
    have e : act d = actReceiving d := by simp only [act, hsnd]
    have h0 := h.fast (Or.inr (Or.inl (by rw [hsnd]; rfl)))
    rw [e] at hl ⊢
    refine Paced.quick hl ?_
    unfold actReceiving
    dsimp only
    (repeat' split) <;> simp [h0]
  case ipUnconnected =>
    cases hd : d.disconnectPending <;> cases hk : d.connectPending <;>
      exact h.keep hl (by simp [act, hsnd, hd])
        (by simp [act, hsnd, hd, hk, hp, isConn, late, handleConnect_snd, handleDisconnect_snd])
  all_goals
    first
    | exact Paced.quick hl (by simpa [act, hsnd] using h.fast (Or.inr (Or.inl (by rw [hsnd]; rfl))))
    | exact h.keep hl (by simp [act, hsnd]) (by simp [act, hsnd, hp, isConn, late] <;>
        exact Or.inl)

theorem paced_calls : Calls Paced where
  io d s m k hl h := h.keep (linkInv_calls.io d s m k hl h.link) rfl id
  isOpen d b h := h.keep (linkInv_calls.isOpen d b h.link) rfl id
  host d a q t h := h.keep (linkInv_calls.host d a q t h.link) rfl id
  conn d h a b := h.keep (linkInv_calls.conn d h.link a b) rfl id
  disc0 d h a := h.keep (linkInv_calls.disc0 d h.link a) rfl id
  disc d h a := h.keep (linkInv_calls.disc d h.link a) rfl id
  write0 d h a := h.keep (linkInv_calls.write0 d h.link a) rfl id
  write d b h a := h.keep (linkInv_calls.write d b h.link a) rfl id
  read d n h := h.keep (linkInv_calls.read d n h.link) rfl id
  rssi d h := h.keep (linkInv_calls.rssi d h.link) rfl id
  userTx d s b hl h := h.keep (linkInv_calls.userTx d s b hl h.link) rfl id
  userRx d s b hl h := h.keep (linkInv_calls.userRx d s b hl h.link) rfl id

theorem parseWait_keep (d : D) : (parseWait d).1.delay = d.delay ∧
    (parseWait d).1.snd = d.snd ∧ (parseWait d).1.rep = d.rep ∧
    (isConn (parseWait d).1.cs = true → isConn d.cs = true) := by
  unfold parseWait
  (repeat' split) <;> simp_all [isConn]

theorem checkState_keep (d : D) : (checkState d).delay = d.delay ∧
    (checkState d).cs = d.cs ∧ (checkState d).rep = d.rep ∧
    ((checkState d).snd = d.snd) := by
  unfold checkState
  split <;> simp

theorem parseDnsReply_slow {S R : Type} (d : SimDev S R) :
    isConn d.parseDnsReply.1.cs = true → isConn d.cs = true := by
  unfold SimDev.parseDnsReply
  dsimp only
  (repeat' split) <;> simp [isConn]

theorem paced_reply (p : Platform) {d : D} (h : Paced d) : Paced (parseReply p d).1 := by
  have hl := linkInv_reply p h.link
  cases hr : d.rep
  case netopen =>
    have hc := h.link.rep (Or.inl hr)
    have e : parseReply p d = if d.wait = none then ({ d with rep := .okReply }, false)
        else if d.has b!"+NETOPEN: 1" then
          ({ d with delay := 2000, snd := .sendNetopen, wait := none, rep := .okReply }, true)
        else (d, false) := by
      simp only [parseReply, hr]
    rw [e] at hl ⊢
    split
    · rename_i hw
      rw [if_pos hw] at hl
      exact h.keep hl rfl (by simp [hc]; exact fun x => Or.inl x)
    · rename_i hw
      rw [if_neg hw] at hl
      split
      · rename_i hn
        rw [if_pos hn] at hl
        apply Paced.slow hl <;> simp [hc, late]
      · exact h
  case ciprxget2 =>
    refine Paced.quick hl ?_
    have h0 := h.fast (Or.inr (Or.inr hr))
    simp only [parseReply, hr]
    split <;> simp [h0]
  all_goals
    have hq : (parseReply p d).1.delay = d.delay ∧ (parseReply p d).1.rep ≠ .ciprxget2 ∧
        (isConn (parseReply p d).1.cs = true → isConn d.cs = true) ∧
        (parseReply p d).1.snd = d.snd := by
      have := parseDnsReply_slow d
      simp only [parseReply, hr]
      (repeat' split) <;> simp_all [isConn]
    refine h.keep hl hq.1 ?_
    rw [hq.2.2.2]
    intro x
    rcases x with x | x | x
    · exact Or.inl (hq.2.2.1 x)
    · exact Or.inr (Or.inl x)
    · exact absurd x hq.2.1

theorem paced_sections (p : Platform) : Sections p Paced where
  fail d h a := h.keep ((linkInv_sections p).fail d h.link a) rfl
    (by simp only [late]; intro x; rcases x with x | x | x <;> simp_all)
  reset d h a b := by
    have hl := (linkInv_sections p).reset d h.link a b
    have hc := h.link.reset a
    apply Paced.slow hl
    · simp [handleReset]
    · simpa [handleReset] using hc
    · simp only [handleReset]
      (try split) <;> simp [late]
    · simp [handleReset]
  line d s m l hs h a b c e := by
    have hl := (linkInv_sections p).line d s m l hs h.link a b c e
    obtain ⟨w1, w2, w3, w4⟩ := parseWait_keep (d.gotLine s m d.rep l)
    have hw : Paced (parseWait (d.gotLine s m d.rep l)).1 :=
      h.keep (linkInv_wait h.link c) w1 (by
        rw [w2, w3]
        intro x
        rcases x with x | x
        · exact Or.inl (w4 x)
        · exact Or.inr x)
    unfold parseLine at hl ⊢
    dsimp only at hl ⊢
    split
    · exact hw
    · rename_i h1
      rw [if_neg h1] at hl
      have hr := paced_reply p hw
      split
      · exact hr
      · rename_i h2
        rw [if_neg h2] at hl
        obtain ⟨k1, k2, k3, k4⟩ := checkState_keep (parseReply p (parseWait (d.gotLine s m d.rep l)).1).1
        exact hr.keep hl k1 (by rw [k2, k3, k4]; exact id)
  drop d h a b c := h.keep ((linkInv_sections p).drop d h.link a b c) (by simp) (by simp)
  csq d h a b c e f g := h.keep ((linkInv_sections p).csq d h.link a b c e f g) (by simp)
    (by simp; intro x; rcases x with x | x <;> simp [x])
  ident d h a b c e f := h.keep ((linkInv_sections p).ident d h.link a b c e f) (by simp)
    (by simp; intro x; rcases x with x | x <;> simp [x])
  identNone d h a := h.keep ((linkInv_sections p).identNone d h.link a) (by simp) (by simp)
  act d h hr hw hp hs := paced_act h hr hw hp hs

theorem paced_own : Own Paced where
  reset d h := by
    have hl := linkInv_own.reset d h.link
    exact h.keep hl (by simp [SimDev.resetStates]) (by simp [SimDev.resetStates, isConn, late])
  ext d x h := h.keep (linkInv_own.ext d x h.link) rfl id
  lock d h a b := h.keep (linkInv_own.lock d h.link a b) rfl id
  unlock d h := h.keep (linkInv_own.unlock d h.link) rfl id

end Sim7x00
end Verif
