import Verif.Lemmas.LinkSim800

/-!
# How long a SIM800 driver sleeps between two runs
-/

namespace Verif
namespace Sim800

open Dev

/-- The delay the driver asks for is one of three values; it is at most 10 from the connection on. -/
structure Paced (d : D) : Prop where
  link : LinkInv d
  all : d.delay ∈ [0, 10, 2000]
  fast : isConn d.cs = true ∨ late d.snd = true ∨ d.rep = .ciprxget2 → d.delay ≤ 10

theorem Paced.keep {d e : D} (h : Paced d) (hl : LinkInv e) (h1 : e.delay = d.delay)
    (h2 : isConn e.cs = true ∨ late e.snd = true ∨ e.rep = .ciprxget2 →
      isConn d.cs = true ∨ late d.snd = true ∨ d.rep = .ciprxget2) : Paced e :=
  ⟨hl, by rw [h1]; exact h.all, fun x => by rw [h1]; exact h.fast (h2 x)⟩

theorem Paced.slow {e : D} (hl : LinkInv e) (h1 : e.delay ∈ [0, 10, 2000])
    (h2 : isConn e.cs = false) (h3 : Sim800.late e.snd = false) (h4 : e.rep ≠ .ciprxget2) :
    Paced e :=
  ⟨hl, h1, fun x => by rcases x with x | x | x <;> simp_all⟩

theorem Paced.quick {e : D} (hl : LinkInv e) (h1 : e.delay ≤ 10)
    (h2 : e.delay ∈ [0, 10, 2000]) : Paced e :=
  ⟨hl, h2, fun _ => h1⟩

theorem paced_act {d : D} (h : Paced d) (hr : d.resetPending = false) (hw : d.wait = none)
    (hp : d.rep = .okReply) (hs : 20 ≤ d.ser.txFree) : Paced (act d) := by
  have hl := linkInv_act h.link hr hw hp hs
  cases hsnd : d.snd
  case notConnected =>
    apply Paced.slow hl <;> simp [act, hsnd, hp, isConn, handleConnect_snd] <;>
      (split <;> simp [late])
  case connecting => apply Paced.slow hl <;> simp [act, hsnd, hp, isConn, late]
  case finalizeConnect => exact Paced.quick hl (by simp [act, hsnd]) (by simp [act, hsnd])
  case sendCiprxget4 => exact Paced.quick hl (by simp [act, hsnd]) (by simp [act, hsnd])
  case sendCstt =>
    have e : act d = actCstt d := by simp only [act, hsnd]
    rw [e] at hl ⊢
    exact h.keep hl (by simp only [actCstt]; (repeat' split) <;> simp)
      (by simp only [actCstt]; (repeat' split) <;> simp [hp, late] <;> exact Or.inl)
  case sendCifsr =>
    exact h.keep hl (by simp only [act, hsnd]; split <;> simp)
      (by
        simp only [act, hsnd]
        split
        · rename_i hd
          simp [handleDisconnect_snd, hd, hp, late] <;> exact Or.inl
        · simp [late] <;> exact Or.inl)
  case sendDnsQuery =>
    exact h.keep hl (by simp only [act, hsnd]; split <;> simp)
      (by simp only [act, hsnd]; split <;> simp [hp, late] <;> (try exact Or.inl) <;> simp [hsnd])
  case sendCipstart =>
    have e : act d = actCipstart d := by simp only [act, hsnd]
    rw [e] at hl ⊢
    exact h.keep hl (by unfold actCipstart; dsimp only; (repeat' split) <;> simp)
      (by unfold actCipstart; dsimp only; (repeat' split) <;> simp [hp, late] <;> exact Or.inl)
  case connected =>
    have e : act d = actConnected d := by simp only [act, hsnd]
    have h0 := h.fast (Or.inr (Or.inl (by rw [hsnd]; rfl)))
    have e0 : (actConnected d).delay = d.delay := by
      unfold actConnected
      dsimp only
      (repeat' split) <;> simp
    rw [e] at hl ⊢
    exact Paced.quick hl (by rw [e0]; exact h0) (by rw [e0]; exact h.all)
  case sendCiprxget2 =>
    have e : act d = actCiprxget2 d := by simp only [act, hsnd]
    have h0 := h.fast (Or.inr (Or.inl (by rw [hsnd]; rfl)))
    have e0 : (actCiprxget2 d).delay = d.delay := by
      unfold actCiprxget2
      dsimp only
      (repeat' split) <;> simp
    rw [e] at hl ⊢
    exact Paced.quick hl (by rw [e0]; exact h0) (by rw [e0]; exact h.all)
  case receiving =>
    have e : act d = actReceiving d := by simp only [act, hsnd]
    have h0 := h.fast (Or.inr (Or.inl (by rw [hsnd]; rfl)))
    have e0 : (actReceiving d).delay = d.delay ∨ (actReceiving d).delay = 10 := by
      unfold actReceiving
      dsimp only
      (repeat' split) <;> simp
    rw [e] at hl ⊢
    rcases e0 with e0 | e0
    · exact Paced.quick hl (by rw [e0]; exact h0) (by rw [e0]; exact h.all)
    · exact Paced.quick hl (by rw [e0]; decide) (by rw [e0]; decide)
  case ipUnconnected =>
    cases hd : d.disconnectPending <;> cases hk : d.connectPending <;>
      exact h.keep hl (by simp [act, hsnd, hd])
        (by simp [act, hsnd, hd, hk, hp, isConn, late, handleConnect_snd, handleDisconnect_snd])
  case sendCipclose =>
    exact h.keep hl (by simp only [act, hsnd]; split <;> simp)
      (by simp only [act, hsnd]; split <;> simp [hp, isConn, late])
  all_goals
    refine h.keep hl (by simp [act, hsnd]) ?_
    rw [hsnd]
    simp only [act, hsnd]
    (try simp [hp, isConn, late]) <;> (try exact Or.inl)

theorem paced_calls : Calls Paced where
  io d s m k hl h := h.keep (linkInv_calls.io d s m k hl h.link) rfl id
  isOpen d b h := h.keep (linkInv_calls.isOpen d b h.link) rfl id
  host d a q t h := h.keep (linkInv_calls.host d a q t h.link) rfl id
  conn d h a b := h.keep (linkInv_calls.conn d h.link a b) rfl id
  disc0 d h a := h.keep (linkInv_calls.disc0 d h.link a) rfl id
  disc d h a := h.keep (linkInv_calls.disc d h.link a) rfl id
  write0 d h a := h.keep (linkInv_calls.write0 d h.link a) rfl id
  write d b h a := h.keep (linkInv_calls.write d b h.link a) rfl id
  read d n h := h.keep (linkInv_calls.read d n h.link) rfl id
  rssi d h := h.keep (linkInv_calls.rssi d h.link) rfl id
  userTx d s b hl h := h.keep (linkInv_calls.userTx d s b hl h.link) rfl id
  userRx d s b hl h := h.keep (linkInv_calls.userRx d s b hl h.link) rfl id

theorem parseReply_keep (p : Platform) (d : D) : (parseReply p d).delay = d.delay ∧
    (isConn (parseReply p d).cs = true → isConn d.cs = true) ∧
    ((parseReply p d).rep = .ciprxget2 → d.rep = .ciprxget2) ∧
    (late (parseReply p d).snd = true → late d.snd = true ∨ d.rep = .ciprxget2) := by
  have hx : isConn d.parseDnsReply.1.cs = true → isConn d.cs = true := by
    unfold SimDev.parseDnsReply
    dsimp only
    (repeat' split) <;> simp [isConn]
  cases hr : d.rep <;> simp only [parseReply, hr] <;> (repeat' split) <;>
    simp_all [isConn, handleDisconnect_snd, late]

theorem checkState_keep (d : D) : (checkState d).delay = d.delay ∧
    (checkState d).cs = d.cs ∧ (checkState d).rep = d.rep ∧
    ((checkState d).snd = d.snd) := by
  unfold checkState
  split <;> simp

theorem paced_sections (p : Platform) : Sections p Paced where
  fail d h a := h.keep ((linkInv_sections p).fail d h.link a) rfl
    (by simp only [late]; intro x; rcases x with x | x | x <;> simp_all)
  reset d h a b := by
    have hl := (linkInv_sections p).reset d h.link a b
    have hc := h.link.reset a
    apply Paced.slow hl
    · have := h.all
      simp only [handleReset]
      split <;> simp_all
    · simp only [handleReset]
      split <;> simpa using hc
    · simp only [handleReset]
      (repeat' split) <;> simp [late]
    · simp only [handleReset]
      split <;> simp
  line d s m l hs h a b c e := by
    have hl := (linkInv_sections p).line d s m l hs h.link a b c e
    have w : (parseWait (d.gotLine s m d.rep l)).delay = d.delay ∧
        (parseWait (d.gotLine s m d.rep l)).snd = d.snd ∧
        (parseWait (d.gotLine s m d.rep l)).rep = d.rep ∧
        (parseWait (d.gotLine s m d.rep l)).cs = d.cs := by
      unfold parseWait; split <;> simp
    obtain ⟨w1, w2, w3, w4⟩ := w
    obtain ⟨r1, r2, r3, r4⟩ := parseReply_keep p (parseWait (d.gotLine s m d.rep l))
    obtain ⟨k1, k2, k3, k4⟩ := checkState_keep (parseReply p (parseWait (d.gotLine s m d.rep l)))
    unfold parseLine at hl ⊢
    split
    · rename_i h1
      rw [if_pos h1] at hl
      exact h.keep hl rfl (by
        dsimp only
        intro x
        rcases x with x | x
        · simp [isConn] at x
        · exact Or.inr x)
    · rename_i h1
      rw [if_neg h1] at hl
      refine h.keep hl (by rw [k1, r1, w1]) ?_
      rw [k2, k3, k4]
      rw [w4] at r2
      rw [w3] at r3 r4
      rw [w2] at r4
      intro x
      rcases x with x | x | x
      · exact Or.inl (r2 x)
      · exact Or.inr (r4 x)
      · exact Or.inr (Or.inr (r3 x))
  drop d h a b c := h.keep ((linkInv_sections p).drop d h.link a b c) (by simp) (by simp)
  csq d h a b c e f g := h.keep ((linkInv_sections p).csq d h.link a b c e f g) (by simp)
    (by simp; intro x; rcases x with x | x <;> simp [x])
  ident d h a b c e f := h.keep ((linkInv_sections p).ident d h.link a b c e f) (by simp)
    (by simp; intro x; rcases x with x | x <;> simp [x])
  identNone d h a := h.keep ((linkInv_sections p).identNone d h.link a) (by simp) (by simp)
  act d h hr hw hp hs := paced_act h hr hw hp hs

theorem paced_own : Own Paced where
  reset d h := by
    have hl := linkInv_own.reset d h.link
    exact h.keep hl (by simp [SimDev.resetStates]) (by simp [SimDev.resetStates, isConn, late])
  ext d x h := h.keep (linkInv_own.ext d x h.link) rfl id
  lock d h a b := h.keep (linkInv_own.lock d h.link a b) rfl id
  unlock d h := h.keep (linkInv_own.unlock d h.link) rfl id

end Sim800
end Verif
