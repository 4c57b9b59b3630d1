import Verif.Lemmas.LinkEspressif

/-!
# How long an ESP driver sleeps between two runs
-/

namespace Verif
namespace Espressif

open Dev

/-- The delay the driver asks for is one of three values; it is 0 from the connection on, and 100 once
a request to disconnect was taken up. -/
structure Paced (d : D) : Prop where
  link : LinkInv d
  all : d.delay ∈ [0, 10, 100]
  conn : isConn d.cs = true → d.delay ∈ [0, 100]
  fast : late d.snd = true ∨ d.rep = .waitCiprecvdata ∨ d.rep = .parseStateCiprecvdata → d.delay = 0

theorem Paced.keep {d e : D} (h : Paced d) (hl : LinkInv e) (h1 : e.delay = d.delay)
    (h0 : isConn e.cs = true → isConn d.cs = true)
    (h2 : late e.snd = true ∨ e.rep = .waitCiprecvdata ∨ e.rep = .parseStateCiprecvdata →
      late d.snd = true ∨ d.rep = .waitCiprecvdata ∨ d.rep = .parseStateCiprecvdata) : Paced e :=
  ⟨hl, by rw [h1]; exact h.all, fun x => by rw [h1]; exact h.conn (h0 x),
    fun x => by rw [h1]; exact h.fast (h2 x)⟩

theorem Paced.slow {e : D} (hl : LinkInv e) (h1 : e.delay ∈ [0, 10, 100])
    (h2 : isConn e.cs = false) (h3 : Espressif.late e.snd = false) (h4 : e.rep = .okReply) :
    Paced e :=
  ⟨hl, h1, fun x => by simp_all, fun x => by rcases x with x | x | x <;> simp_all⟩

theorem Paced.quick {e : D} (hl : LinkInv e) (h1 : e.delay = 0) : Paced e :=
  ⟨hl, by simp [h1], fun _ => by simp [h1], fun _ => h1⟩

theorem Paced.leave {e : D} (hl : LinkInv e) (h1 : e.delay = 100)
    (h3 : Espressif.late e.snd = false) (h4 : e.rep = .okReply) : Paced e :=
  ⟨hl, by simp [h1], fun _ => by simp [h1], fun x => by rcases x with x | x | x <;> simp_all⟩

theorem paced_act {d : D} (h : Paced d) (hr : d.resetPending = false) (hw : d.wait = none)
    (hp : d.rep = .okReply) (hs : 20 ≤ d.ser.txFree) : Paced (act d) := by
  have hl := linkInv_act h.link hr hw hp hs
  cases hsnd : d.snd
  case notConnected =>
    apply Paced.slow hl <;> simp [act, hsnd, hp, isConn, handleConnect_snd] <;>
      (split <;> simp [late])
  case connecting => apply Paced.slow hl <;> simp [act, hsnd, hp, isConn, late]
  case finalizeConnect => exact Paced.quick hl (by simp [act, hsnd])
  case sendCipclose => exact Paced.quick hl (by simp only [act, hsnd]; split <;> rfl)
  case connected =>
    have e : act d = actConnected d := by simp only [act, hsnd]
    have h0 := h.fast (Or.inl (by rw [hsnd]; rfl))
    rw [e] at hl ⊢
    by_cases hq : (actConnected d).delay = 0
    · exact Paced.quick hl hq
    · have : (actConnected d).delay = 100 ∧ late (actConnected d).snd = false ∧
          (actConnected d).rep = .okReply := by
        revert hq
        unfold actConnected
        dsimp only
        (repeat' split) <;> simp_all [handleDisconnect_snd, late]
      exact Paced.leave hl this.1 this.2.1 this.2.2
  case sendCiprecvdata =>
    have e : act d = actCiprecvdata d := by simp only [act, hsnd]
    have h0 := h.fast (Or.inl (by rw [hsnd]; rfl))
    rw [e] at hl ⊢
    by_cases hq : (actCiprecvdata d).delay = 0
    · exact Paced.quick hl hq
    · have : (actCiprecvdata d).delay = 100 ∧ late (actCiprecvdata d).snd = false ∧
          (actCiprecvdata d).rep = .okReply := by
        revert hq
        unfold actCiprecvdata
        dsimp only
        (repeat' split) <;> simp_all [handleDisconnect_snd, late]
      exact Paced.leave hl this.1 this.2.1 this.2.2
  case receiving =>
    have e : act d = actReceiving d := by simp only [act, hsnd]
    have h0 := h.fast (Or.inl (by rw [hsnd]; rfl))
    rw [e] at hl ⊢
    refine Paced.quick hl ?_
    unfold actReceiving
    dsimp only
    (repeat' split) <;> simp [h0]
  case sendDataState =>
    exact Paced.quick hl (by simpa [act, hsnd] using h.fast (Or.inl (by rw [hsnd]; rfl)))
  case sendCipstart =>
    have e : act d = actCipstart d := by simp only [act, hsnd]
    rw [e] at hl ⊢
    refine h.keep hl ?_ ?_ ?_
    · unfold actCipstart; dsimp only; split <;> simp
    · unfold actCipstart; dsimp only; split <;> simp
    · unfold actCipstart; dsimp only; split <;> simp [hp, late]
  all_goals
    refine h.keep hl (by simp [act, actCwjap, hsnd]) ?_ ?_
    · simp [act, actCwjap, hsnd, isConn]
    · rw [hsnd]
      simp only [act, actCwjap, hsnd]
      (try simp [hp, late])

theorem paced_calls : Calls Paced where
  io d s m k hl h := h.keep (linkInv_calls.io d s m k hl h.link) rfl id id
  isOpen d b h := h.keep (linkInv_calls.isOpen d b h.link) rfl id id
  host d a q t h := h.keep (linkInv_calls.host d a q t h.link) rfl id id
  conn d h a b := h.keep (linkInv_calls.conn d h.link a b) rfl id id
  disc0 d h a := h.keep (linkInv_calls.disc0 d h.link a) rfl id id
  disc d h a := h.keep (linkInv_calls.disc d h.link a) rfl id id
  write0 d h a := h.keep (linkInv_calls.write0 d h.link a) rfl id id
  write d b h a := h.keep (linkInv_calls.write d b h.link a) rfl id id
  read d n h := h.keep (linkInv_calls.read d n h.link) rfl id id
  rssi d h := h.keep (linkInv_calls.rssi d h.link) rfl id id
  userTx d s b hl h := h.keep (linkInv_calls.userTx d s b hl h.link) rfl id id
  userRx d s b hl h := h.keep (linkInv_calls.userRx d s b hl h.link) rfl id id

theorem parseReply_keep (p : Platform) (d : D) : (parseReply p d).delay = d.delay ∧
    (parseReply p d).cs = d.cs ∧
    ((parseReply p d).rep = .waitCiprecvdata ∨ (parseReply p d).rep = .parseStateCiprecvdata →
      d.rep = .waitCiprecvdata ∨ d.rep = .parseStateCiprecvdata) ∧
    (late (parseReply p d).snd = true → late d.snd = true ∨ d.rep = .parseStateCiprecvdata) := by
  cases hr : d.rep <;> simp only [parseReply, hr] <;> (repeat' split) <;> simp_all [late]

theorem checkState_keep (p : Platform) (d : D) : (checkState p d).delay = d.delay ∧
    (checkState p d).cs = d.cs ∧ (checkState p d).rep = d.rep ∧
    (late (checkState p d).snd = true → late d.snd = true) := by
  unfold checkState
  dsimp only
  (repeat' split) <;> simp [late]

theorem paced_sections (p : Platform) : Sections p Paced where
  fail d h a := h.keep ((linkInv_sections p).fail d h.link a) rfl id
    (by simp only [late]; intro x; rcases x with x | x <;> simp_all)
  reset d h a := by
    have hl := (linkInv_sections p).reset d h.link a
    have hc := h.link.reset a
    apply Paced.slow hl
    · simp [handleReset]
    · simpa [handleReset] using hc
    · simp only [handleReset]
      (try split) <;> simp [late]
    · simp [handleReset]
  line d s m l r hs h a b ra c e f := by
    have hl := (linkInv_sections p).line d s m l r hs h.link a b ra c e f
    have hra : r = .waitCiprecvdata ∨ r = .parseStateCiprecvdata →
        d.rep = .waitCiprecvdata ∨ d.rep = .parseStateCiprecvdata := by
      rcases ra with x | x
      · rw [x]; exact id
      · exact fun _ => Or.inl x.1
    have w : (parseWait (parseSendFail (d.gotLine s m r l))).delay = d.delay ∧
        (parseWait (parseSendFail (d.gotLine s m r l))).snd = d.snd ∧
        (parseWait (parseSendFail (d.gotLine s m r l))).rep = r ∧
        (isConn (parseWait (parseSendFail (d.gotLine s m r l))).cs = true →
          isConn d.cs = true) := by
      unfold parseWait parseSendFail; (repeat' split) <;> simp [isConn]
    obtain ⟨w1, w2, w3, w4⟩ := w
    obtain ⟨r1, r2, r3, r4⟩ := parseReply_keep p (parseWait (parseSendFail (d.gotLine s m r l)))
    obtain ⟨k1, k2, k3, k4⟩ := checkState_keep p
      (parseReply p (parseWait (parseSendFail (d.gotLine s m r l))))
    unfold parseLine at hl ⊢
    split
    · rename_i h1
      rw [if_pos h1] at hl
      exact h.keep hl rfl (by simp [isConn]) (by
        dsimp only
        intro x
        rcases x with x | x
        · exact Or.inl x
        · exact Or.inr (hra x))
    · rename_i h1
      rw [if_neg h1] at hl
      refine h.keep hl (by rw [k1, r1, w1]) (by rw [k2, r2]; exact w4) ?_
      rw [k3]
      rw [w3] at r3 r4
      rw [w2] at r4
      intro x
      rcases x with x | x
      · rcases r4 (k4 x) with y | y
        · exact Or.inl y
        · exact Or.inr (hra (Or.inr y))
      · exact Or.inr (hra (r3 x))
  drop d h a b c := h.keep ((linkInv_sections p).drop d h.link a b c) (by simp) (by simp) (by simp)
  csq d h a b c e f g := h.keep ((linkInv_sections p).csq d h.link a b c e f g) (by simp) (by simp)
    (by simp; intro x; simp [x])
  mac d h a b c e f g := h.keep ((linkInv_sections p).mac d h.link a b c e f g) (by simp) (by simp)
    (by simp; intro x; simp [x])
  act d h hr hw hp hs := paced_act h hr hw hp hs

theorem paced_own : Own Paced where
  reset d h := by
    have hl := linkInv_own.reset d h.link
    exact h.keep hl (by simp [resetStates]) (by simp [resetStates, isConn])
      (by simp [resetStates, late])
  ext d x h := h.keep (linkInv_own.ext d x h.link) rfl id id
  ub d h := h.keep (linkInv_own.ub d h.link) rfl id id

end Espressif
end Verif
