import Verif.Spec.Abort
import Verif.Lemmas.Recovery
import Verif.Lemmas.Chat7x00
import Verif.Lemmas.Chat800
import Verif.Lemmas.ChatEsp
import Verif.Lemmas.ChatCC

/-! A connection is given up while it is opened. -/

namespace Verif

open Dev Spec

theorem Spec.Dialogue.split {as bs : List Exchange} {l : List Beat} (h : Dialogue (as ++ bs) l) :
    ∃ l1 l2, l = l1 ++ l2 ∧ Dialogue as l1 ∧ Dialogue bs l2 := by
  induction as generalizing l with
  | nil => exact ⟨[], l, rfl, .nil, h⟩
  | cons a as ih =>
    cases h with
    | cons h1 h2 =>
      obtain ⟨l1, l2, rfl, h3, h4⟩ := ih h2
      exact ⟨_ :: l1, l2, rfl, .cons h1 h3, h4⟩

/-- The last two calls of `run()` after an answer. -/
theorem Spec.Beat.Slow.split {b : Beat} (h : b.Slow) (n : Nat) :
    ∃ b', b.ops n = b'.ops n ++ [.run true, .run true] ∧ ∀ a, Answers a b → Answers a b' := by
  obtain ⟨noise, head, last, runs⟩ := b
  obtain ⟨j, hj⟩ : ∃ j, runs = j + 2 := ⟨runs - 2, by have : 2 ≤ runs := h; omega⟩
  subst hj
  refine ⟨⟨noise, head, last, j⟩, ?_, fun a h => ⟨h.answer, h.noise⟩⟩
  have e : List.replicate (j + 2 + 1) (Op.run true) = List.replicate (j + 1) (.run true) ++ [.run true, .run true] := by
    rw [show j + 2 + 1 = (j + 1) + 2 by omega, ← List.replicate_append_replicate]; rfl
  simp only [Beat.ops, Spoken.ops, hear, e]
  simp

theorem Spec.ops_append (n : Nat) (as bs : List Beat) : Spec.ops n (as ++ bs) = Spec.ops n as ++ Spec.ops n bs := by
  simp [Spec.ops]

theorem Spec.says_append (as bs : List Exchange) : says (as ++ bs) = says as ++ says bs := by
  simp [says]

theorem Spec.says_drop (as : List Exchange) {k m : Nat} (h : k ≤ m) : says (as.take m) = says (as.take k) ++ says ((as.take m).drop k) := by
  rw [← says_append]
  congr 1
  have := List.take_append_drop k (as.take m)
  rw [List.take_take, Nat.min_eq_left h] at this
  exact this.symm

namespace Dev

variable {S R X : Type} {step : Dev S R X → Op → Dev S R X} {n : Nat}

/-- Three calls of `run()`. -/
theorem exec_slow3 {Q0 Q1 Q : Dev S R X → Prop} {a : Await} {b : Beat} {d : Dev S R X}
    (hs : ∀ b', Answers a b' → ∀ W : Dev S R X → Prop, (∀ d, Q0 d → W d) → (∀ d, W d → W (step d (.run true))) → W (exec step d (b'.ops n)))
    (h0 : ∀ d, Q0 d → Q1 (step d (.run true))) (h1 : ∀ d, Q1 d → Q (step d (.run true)))
    (hq : ∀ d, Q d → Q (step d (.run true))) (hb : Answers a b) (hw : b.Slow) : Q (exec step d (b.ops n)) := by
  obtain ⟨b', e, h⟩ := hw.split n
  rw [e, exec_append]
  show Q (step (step _ _) _)
  have := hs b' (h _ hb) (fun d => Q0 d ∨ Q1 d ∨ Q d) (fun d h => .inl h) (fun d hd => by
    rcases hd with x | x | x
    · exact .inr (.inl (h0 _ x))
    · exact .inr (.inr (h1 _ x))
    · exact .inr (.inr (hq _ x)))
  rcases this with x | x | x
  · exact h1 _ (h0 _ x)
  · exact hq _ (h1 _ x)
  · exact hq _ (hq _ x)

/-- The exchanges from `k` to `N`. -/
theorem exec_between {P : Nat → Dev S R X → Prop} {as : List Exchange} {i N : Nat} (hN : N ≤ as.length)
    (h : ∀ k (hk : k < as.length) d b, i ≤ k → k < N → P k d → Answers as[k].await b → P (k + 1) (exec step d (b.ops n)))
    {k : Nat} (hi : i ≤ k) (hk : k ≤ N) {bs : List Beat} (hb : Dialogue ((as.take N).drop k) bs) {d : Dev S R X} (hd : P k d) :
    P N (exec step d (Spec.ops n bs)) := by
  induction hm : N - k generalizing k bs d with
  | zero =>
    obtain rfl : k = N := by omega
    rw [List.drop_eq_nil_of_le (by simp; omega)] at hb
    cases hb
    exact hd
  | succ m ih =>
    have hl : k < (as.take N).length := by simp; omega
    rw [List.drop_eq_getElem_cons hl, List.getElem_take] at hb
    cases hb with
    | cons h1 h2 =>
      show P N (exec step d (_ ++ Spec.ops n _))
      rw [exec_append]
      exact ih (by omega) (by omega) h2 (h k (by omega) d _ hi (by omega) hd h1) (by omega)

/-- `disconnect()` while the driver waits. -/
theorem exec_giveUp {P Q : Dev S R X → Prop} (h : ∀ d, P d → Q (step d .disconnect)) (hq : ∀ d, Q d → Q (step d (.run true)))
    {d : Dev S R X} (hd : P d) (i : Nat) : Q (exec step d (giveUp i)) := exec_runs hq (h d hd) i

theorem Talk.disconnect {c : Conf} {E : X → Prop} {t0 : List Ev} {T : List (List Byte)} {s : S} {r : R} {w : Option (List Byte)} {cs : ConnState}
    {dp cp : Bool} {d : Dev S R X} (h : Talk c E t0 T ⟨s, r, w, cs, dp, cp, false⟩ d) (hc : cs ≠ .notConnected) :
    Talk c E t0 T ⟨s, r, w, cs, true, cp, false⟩ (d.disconnect.log .apiDisconnect) := by
  unfold Dev.disconnect
  rw [if_neg (by unfold Dev.isIdle; rw [h.cs]; cases cs <;> simp_all)]
  refine Talk.log ?_ _ rfl rfl
  moved h

end Dev

namespace Sim7x00

variable {p : Platform} {c : Conf} {apn addr : Option (List Byte)} {t0 : List Ev} {T : List (List Byte)} {q : St Snd Rep}
  {d g : D} {n : Nat} {l : List Byte}

theorem StageD.disconnect {a : List Byte} {r : Peer} : ∀ {k : Nat}, k ≤ 8 → StageD false c a r t0 T k d →
    StageD true c a r t0 T k (step p d .disconnect)
  | 0, _, h | 1, _, h | 2, _, h | 3, _, h | 4, _, h | 5, _, h | 6, _, h | 7, _, h | 8, _, h => Talk.disconnect h (by simp)
  | k + 9, hk, _ => by omega

theorem StageD.run {a : List Byte} {r : Peer} {dp : Bool} : ∀ {k : Nat}, k ≤ 8 → StageD dp c a r t0 T k d →
    StageD dp c a r t0 T k (step p d (.run true))
  | 0, _, h | 1, _, h | 2, _, h | 3, _, h | 4, _, h | 5, _, h | 6, _, h | 7, _, h | 8, _, h => wait_idle p h (.inl (by simp)) (by simp)
  | k + 9, hk, _ => by omega

section
variable (p) (hr : 60 ≤ c.rx) (ht : 20 ≤ c.tx) (hn : c.tx ≤ n) (hI : c.Idle) (hw : c.part = [])
include hr ht hn hI hw

/-- The request is noticed before the network is opened. -/
theorem cut_short {cs : ConnState} (h : Chat c apn addr t0 T (at_ .sendNetopen .okReply (some b!"OK") cs true) d) {b : Beat}
    (hb : Answers (await b!"OK" [b!"ERROR"]) b) (hs : b.Slow) : Down c apn addr t0 T (exec (step p) d (b.ops n)) := by
  refine exec_slow3 (Q0 := fun d => Chat c apn addr t0 T (at_ .finalizeDisconnect .okReply none cs) d ∧ d.ser.txFree = c.tx)
    (Q1 := Down c apn addr t0 T) (a := await b!"OK" [b!"ERROR"]) (fun b' hb' W h0 hq => ?_) (fun d hd => ?_)
    (fun d hd => down_idle p hr ht hn hI hd) (fun d hd => down_idle p hr ht hn hI hd) hb hs
  · refine stage_ok p hr ht hn hw (by simp) (by decide) (by decide) (fun g hg hf => h0 _ ?_) hq h hb'
    unfold act
    rw [hg.snd]
    dsimp only
    unfold Dev.handleDisconnect
    rw [if_pos (by rw [hg.disc]), if_pos (by rw [hg.disc])]
    refine ⟨?_, hf⟩
    moved hg
  · show Down _ _ _ _ _ (run p d true)
    rw [run_calm hd.1 (by simp), proceed_act hd.1 rfl rfl (by rw [hd.2]; exact ht)]
    have := act_finalizeDisconnect hd.1
    exact ⟨this.1, by rw [this.2]; exact hd.2⟩

/-- The connection is opened and closed. -/
theorem cut_long {cs : ConnState} (h : Chat c apn addr t0 T (at_ .finalizeConnect .cipopen (some b!"+CIPOPEN: 0,0") cs true) d) {b : Beat}
    (hb : Answers (await b!"+CIPOPEN: 0,0" [b!"ERROR", b!"+CIPOPEN: 0,"]) b) (hs : b.Slow) :
    Chat c apn addr t0 (T ++ [b!"AT+NETCLOSE\r\n"]) (at_ .finalizeDisconnect .okReply (some b!"+NETCLOSE: 0") .intermediate)
      (exec (step p) d (b.ops n)) := by
  refine exec_slow3 (Q0 := fun d => Chat c apn addr t0 T (at_ .connected .okReply none .connected true) d ∧ d.ser.txFree = c.tx)
    (Q1 := fun d => Chat c apn addr t0 T (at_ .sendNetclose .okReply none .connected) d ∧ d.ser.txFree = c.tx)
    (a := await b!"+CIPOPEN: 0,0" [b!"ERROR", b!"+CIPOPEN: 0,"]) (fun b' hb' W h0 hq => ?_) (fun d hd => ?_) (fun d hd => ?_)
    (fun d hd => wait_idle p hd (.inl (by simp)) (by simp)) hb hs
  · refine stage p hr ht hn hw (by simp) (fun g l hg hl hi => ?_) (fun g l hg hl hx => ?_) (fun g hg hf => h0 _ ?_) hq h hb'
    · refine (parseLine_eq (parseWait_clear hl hg.wait (by decide) (hi _ (by simp)) (hi _ (by simp))) (b := g) ?_).trans ?_
      · unfold parseReply
        rw [hg.rep]
        dsimp only
        rw [if_neg (by rw [hg.wait]; simp), hl.has_false (by decide) (hi _ (by simp))]
        simp
      · rw [checkState_low (by rw [hg.snd]; exact (by decide : ¬ Snd.connected.idx ≤ Snd.finalizeConnect.idx))]
    · refine (parseLine_eq (parseWait_good hl hg.wait (by decide) hx) (b := { g with wait := none, rep := .okReply }) ?_).trans ?_
      · unfold parseReply
        rw [show ({ g with wait := none } : D).rep = .cipopen from hg.rep]
        rfl
      · rw [checkState_low (by show ¬ _ ≤ g.snd.idx; rw [hg.snd]; exact (by decide : ¬ Snd.connected.idx ≤ Snd.finalizeConnect.idx))]
    · have := act_finalizeConnect hg
      exact ⟨this.1, by rw [this.2.2]; exact hf⟩
  · show Chat _ _ _ _ _ _ (run p d true) ∧ (run p d true).ser.txFree = _
    rw [run_calm hd.1 (by simp), proceed_act hd.1 rfl rfl (by rw [hd.2]; exact ht)]
    have := act_hangUp hI hd.1
    exact ⟨this.1, by rw [this.2]; exact hd.2⟩
  · show Chat _ _ _ _ _ _ (run p d true)
    rw [run_calm hd.1 (by simp), proceed_act hd.1 rfl rfl (by rw [hd.2]; exact ht)]
    exact act_netclose hd.1 (by rw [hd.2]; simp; omega)

/-- The rest of the dialogue. -/
theorem after_ok {a : List Byte} {r : Peer} (hk : r.Ok) (hc : c.host = some r.host) (hp : c.port = r.port.toNat)
    (hy : c.typ = r.typ) (hx : ∀ t ∈ says (open7x00 a r), t.length ≤ c.tx) (hd : r.host.length + 20 ≤ c.tx) {k : Nat} (hk8 : k ≤ 8)
    {bs : List Beat} (hb : Dialogue (after7x00 a r k) bs) (hs : ∀ b ∈ bs, b.Slow) (h : StageD true c a r t0 T k d) :
    ∃ addr, Down c (some a) addr t0 (T ++ says ((open7x00 a r).take k) ++ says (after7x00 a r k)) (exec (step p) d (Spec.ops n bs)) := by
  have hst := open_stageD (dp := true) (T := T) (t0 := t0) p hr ht hn hI hw hk hc hp hy hx hd
  unfold after7x00 remaining at hb ⊢
  by_cases hk3 : k ≤ 3
  · rw [if_pos hk3] at hb ⊢
    obtain ⟨l1, l2, rfl, h1, h2⟩ := hb.split
    cases h2 with
    | cons h2 h3 =>
      cases h3
      rename_i b
      have h4 := exec_between (as := open7x00 a r) (N := 3) (i := 0) (show 3 ≤ 9 by omega) (fun k hk d b _ hN hd hb => hst k hk d b (.inr ⟨by omega, by omega⟩) hd hb)
        (Nat.zero_le _) hk3 h1 h
      refine ⟨none, ?_⟩
      rw [ops_append, exec_append, says_append, ← List.append_assoc, List.append_assoc T, ← says_drop _ hk3]
      show Down _ _ _ _ _ (exec (step p) _ (b.ops n ++ []))
      rw [List.append_nil, show says [(⟨await b!"OK" [b!"ERROR"], []⟩ : Exchange)] = [] from rfl, List.append_nil]
      exact cut_short p hr ht hn hI hw h4 h2 (hs b (by simp))
  · rw [if_neg hk3] at hb ⊢
    change Dialogue (((open7x00 a r).take 8).drop k ++ _) _ at hb
    show ∃ addr, Down _ _ _ _ (_ ++ says (((open7x00 a r).take 8).drop k ++ _)) _
    obtain ⟨l1, l2, rfl, h1, h2⟩ := hb.split
    cases h2 with
    | cons h2 h3 =>
      rename_i b bs
      have h4 := exec_between (as := open7x00 a r) (N := 8) (i := 4) (show 8 ≤ 9 by omega) (fun k hk d b hi hN hd hb => hst k hk d b (.inr ⟨by omega, by omega⟩) hd hb)
        (by omega) hk8 h1 h
      refine ⟨some r.addr, ?_⟩
      rw [ops_append, exec_append, says_append, ← List.append_assoc, List.append_assoc T, ← says_drop _ hk8]
      show Down _ _ _ _ _ (exec (step p) _ (b.ops n ++ Spec.ops n bs))
      rw [exec_append]
      have h5 := close_ok p hr ht hn hI hw (cut_long p hr ht hn hI hw h4 h2 (hs b (by simp))) h3
      rw [List.append_assoc _ [_]] at h5
      exact h5

/-- A connection that is given up. -/
theorem givenUp_ok {a : List Byte} {r : Peer} (hk : r.Ok) (hx : ∀ t ∈ visit7x00 a r, t.length ≤ c.tx)
    (hd : r.host.length + 20 ≤ c.tx) (h : Down c apn addr t0 T d) {k : Nat} (hk8 : k < (open7x00 a r).length) {v : GivenUp}
    (hv : v.Ok ((open7x00 a r).take k) (after7x00 a r k) fun _ => True) :
    ∃ addr, Down (c.to r) (some a) addr t0 (T ++ b!"ATE0\r\n" :: (says ((open7x00 a r).take k) ++ says (after7x00 a r k)))
      (exec (step p) d (setup7x00 a r ++ v.ops n)) := by
  have hk9 : k ≤ 8 := Nat.le_of_lt_succ hk8
  have h1 := arrive_ok p hr ht hn hI hw hk hx hd h v.dial (Nat.le_of_lt hk8) hv.up
  have h2 := exec_giveUp (P := StageD false (c.to r) a r t0 (T ++ [b!"ATE0\r\n"]) k) (Q := StageD true (c.to r) a r t0 (T ++ [b!"ATE0\r\n"]) k)
    (step := step p) (fun d hd => StageD.disconnect hk9 hd) (fun d hd => StageD.run hk9 hd) h1 v.giveUp
  obtain ⟨ad, h3⟩ := after_ok (c := c.to r) p hr ht hn hI hw hk rfl rfl rfl (fun t m => hx t (by unfold visit7x00; simp [m])) hd hk9 hv.down hv.slow h2
  refine ⟨ad, ?_⟩
  have e0 : (c.to r).mid [] = c.to r := Conf.mid_nil hw
  have h4 := exec_hearAll (n := n) (P := fun u => Down ((c.to r).mid u) (some a) ad t0 (T ++ [b!"ATE0\r\n"] ++ says ((open7x00 a r).take k) ++ says (after7x00 a r k))) step_irq
    (fun u d hd => down_idle (c := (c.to r).mid u) p hr ht hn hI hd)
    (fun u v w d hd hl hw0 _ => down_more (c := c.to r) p hr ht hn hI hd hl hw0)
    (fun u v d hd hl hv hs => down_noise (c := c.to r) p hr ht hn hI hd hl hv)
    (e0.symm ▸ h3) hv.rest
  rw [e0, ← exec_append, ← exec_append, ← exec_append] at h4
  have e : T ++ [b!"ATE0\r\n"] ++ says ((open7x00 a r).take k) ++ says (after7x00 a r k) =
      T ++ b!"ATE0\r\n" :: (says ((open7x00 a r).take k) ++ says (after7x00 a r k)) := by simp
  have e2 : setup7x00 a r ++ (dial v.dial ++ Spec.ops n v.up) ++ (giveUp v.giveUp ++ (Spec.ops n v.down ++ hearAll n v.rest)) =
      setup7x00 a r ++ v.ops n := by simp [GivenUp.ops]
  rw [e, e2] at h4
  exact h4

end
end Sim7x00

namespace Sim800

variable {p : Platform} {c : Conf} {apn addr : Option (List Byte)} {t0 : List Ev} {T : List (List Byte)} {q : St Snd Rep}
  {d g : D} {n : Nat} {l : List Byte}

theorem StageD.disconnect {a : List Byte} {r : Peer} : ∀ {k : Nat}, k ≤ 8 → StageD false c a r t0 T k d →
    StageD true c a r t0 T k (step p d .disconnect)
  | 0, _, h | 1, _, h | 2, _, h | 3, _, h | 4, _, h | 5, _, h | 6, _, h | 7, _, h | 8, _, h => Talk.disconnect h (by simp)
  | k + 9, hk, _ => by omega

theorem StageD.run {a : List Byte} {r : Peer} {dp : Bool} : ∀ {k : Nat}, k ≤ 8 → StageD dp c a r t0 T k d →
    StageD dp c a r t0 T k (step p d (.run true))
  | 5, _, h => wait_idle p h (.inr (by simp)) (by simp)
  | 0, _, h | 1, _, h | 2, _, h | 3, _, h | 4, _, h | 6, _, h | 7, _, h | 8, _, h => wait_idle p h (.inl (by simp)) (by simp)
  | k + 9, hk, _ => by omega

/-- While the connection is awaited, the first line moves the driver on to the closing. -/
def Cut (c : Conf) (apn addr : Option (List Byte)) (t0 : List Ev) (T : List (List Byte)) (d : D) : Prop :=
  Chat c apn addr t0 T (at_ .finalizeConnect .cipstart (some b!"0, CONNECT OK") .intermediate true) d ∨
    Chat c apn addr t0 T (at_ .sendCipshut .okReply (some b!"0, CONNECT OK") .intermediate) d

theorem parse_cipstart (hl : LineDone d l) (hz : Clear errors800 l) (hc : Clear [b!"+CIPRXGET: 1,0", b!"0, CLOSED"] l)
    (h : Chat c apn addr t0 T (at_ .finalizeConnect .cipstart (some b!"0, CONNECT OK") .intermediate true) d) (ho : ¬ b!"0, CONNECT OK" <+: l) :
    parseLine p d = ({ d with disconnectPending := false, snd := .sendCipshut, rep := .okReply }, false) := by
  refine (parseLine_eq (isError_clear hl hz) (parseWait_clear hl h.wait (by decide) ho) (b := { d with disconnectPending := false, snd := .sendCipshut, rep := .okReply }) ?_).trans ?_
  · unfold parseReply
    rw [h.rep]
    dsimp only
    unfold Dev.handleDisconnect
    rw [if_pos (by rw [h.disc]), if_pos (by rw [h.disc])]
  · rw [checkState_clear (d := ({ d with disconnectPending := false, snd := .sendCipshut, rep := .okReply } : D)) ⟨hl.text, hl.zero, hl.fill⟩ hc]

theorem parse_cut (hl : LineDone d l) (hz : Clear errors800 l) (hc : Clear [b!"+CIPRXGET: 1,0", b!"0, CLOSED"] l)
    (h : Chat c apn addr t0 T (at_ .sendCipshut .okReply (some b!"0, CONNECT OK") .intermediate) d) (ho : ¬ b!"0, CONNECT OK" <+: l) :
    parseLine p d = (d, false) := by
  rw [parseLine_eq (isError_clear hl hz) (parseWait_clear hl h.wait (by decide) ho) (parseReply_ok h.rep), checkState_clear hl hc]

section
variable (p) (hr : 60 ≤ c.rx) (ht : 20 ≤ c.tx) (hn : c.tx ≤ n)
include hr ht hn

omit hr ht hn in
theorem cut_idle (h : Cut c apn addr t0 T d) : Cut c apn addr t0 T (step p d (.run true)) :=
  h.imp (fun h => wait_idle p h (.inl (by simp)) (by simp)) (fun h => wait_idle p h (.inl (by simp)) (by simp))

theorem cut_more {u v w : List Byte} (h : Cut (c.mid u) apn addr t0 T d) (hl : IsLine (u ++ v ++ w)) (hw : w ≠ []) :
    Cut (c.mid (u ++ v)) apn addr t0 T (step p (hearing d n v) (.run true)) :=
  h.imp (fun h => wait_more p hr ht hn h (.inl (by simp)) (by simp) hl hw) (fun h => wait_more p hr ht hn h (.inl (by simp)) (by simp) hl hw)

/-- A line, but not the awaited one. -/
theorem cut_line {u v : List Byte} (h : Cut (c.mid u) apn addr t0 T d) (hl : IsLine (u ++ v)) (hv : v ≠ [])
    (hi : Clear (b!"0, CONNECT OK" :: b!"+CIPRXGET: 1,0" :: b!"0, CLOSED" :: errors800) (u ++ v)) :
    Chat (c.mid []) apn addr t0 T (at_ .sendCipshut .okReply (some b!"0, CONNECT OK") .intermediate) (step p (hearing d n v) (.run true)) := by
  have hz : Clear errors800 (u ++ v) := fun w hw => hi w (List.mem_cons_of_mem _ (List.mem_cons_of_mem _ (List.mem_cons_of_mem _ hw)))
  have hc : Clear [b!"+CIPRXGET: 1,0", b!"0, CLOSED"] (u ++ v) := fun w hw => hi w (by
    simp only [List.mem_cons, List.not_mem_nil, or_false] at hw
    rcases hw with rfl | rfl <;> simp)
  have ho : ¬ b!"0, CONNECT OK" <+: u ++ v := hi _ (by simp)
  rcases h with h | h
  · obtain ⟨g, h1, h2, h3, h4, e⟩ := run_heard (p := p) h hn hl hv hr
    show Chat _ _ _ _ _ _ (run p _ true)
    have h5 : Chat (c.mid []) apn addr t0 T (at_ .sendCipshut .okReply (some b!"0, CONNECT OK") .intermediate)
        ({ g with disconnectPending := false, snd := .sendCipshut, rep := .okReply } : D) := by
      moved h1
    rw [e, parse_cipstart h2 hz hc h1 ho]
    simp only [Bool.false_eq_true, if_false]
    rw [proceed_wait h5 (.inl (by simp))]
    exact h5
  · exact wait_noise p hr ht hn h (.inl (by simp)) hl hv fun g h1 h2 => parse_cut h2 hz hc h1 ho

variable (hI : c.Idle) (hw : c.part = [])
include hI hw

/-- The request is noticed before the address is demanded. -/
theorem cut_short {cs : ConnState} (h : Chat c apn addr t0 T (at_ .sendCifsr .okReply (some b!"OK") cs true) d) {b : Beat}
    (hb : Answers (await b!"OK" errors800) b) (hs : b.Slow) :
    Chat c apn addr t0 (T ++ [b!"AT+CIPSHUT\r\n"]) (at_ .finalizeDisconnect .okReply (some b!"SHUT OK") .intermediate)
      (exec (step p) d (b.ops n)) := by
  refine exec_slow3 (Q0 := fun d => Chat c apn addr t0 T (at_ .sendCipshut .okReply none cs) d ∧ d.ser.txFree = c.tx)
    (Q1 := Chat c apn addr t0 (T ++ [b!"AT+CIPSHUT\r\n"]) (at_ .finalizeDisconnect .okReply (some b!"SHUT OK") .intermediate))
    (a := await b!"OK" errors800) (fun b' hb' W h0 hq => ?_) (fun d hd => ?_)
    (fun d hd => wait_idle p hd (.inl (by simp)) (by simp)) (fun d hd => wait_idle p hd (.inl (by simp)) (by simp)) hb hs
  · refine stage_ok p hr ht hn hw (by simp) (by decide) (by decide) (by decide) (fun g hg hf => h0 _ ?_) hq h hb'
    unfold act
    rw [hg.snd]
    dsimp only
    unfold Dev.handleDisconnect
    rw [if_pos (by rw [hg.disc]), if_pos (by rw [hg.disc])]
    refine ⟨?_, hf⟩
    moved hg
  · show Chat _ _ _ _ _ _ (run p d true)
    rw [run_calm hd.1 (by simp), proceed_act hd.1 rfl rfl (by rw [hd.2]; exact ht)]
    exact act_cipshut hd.1 (by rw [hd.2]; simp; omega)

/-- Lines other than the awaited one do not end the wait. -/
theorem cut_stuck (h : Chat c apn addr t0 T (at_ .finalizeConnect .cipstart (some b!"0, CONNECT OK") .intermediate true) d) {xs : List Spoken}
    (hx : ∀ x ∈ xs, x.Is (Clear (b!"0, CONNECT OK" :: b!"+CIPRXGET: 1,0" :: b!"0, CLOSED" :: errors800))) :
    Cut c apn addr t0 T (exec (step p) d (hearAll n xs)) := by
  have e0 := Conf.mid_nil hw
  have h3 := exec_hearAll (n := n) (P := fun u => Cut (c.mid u) apn addr t0 T) step_irq (fun u d hd => cut_idle p hd)
    (fun u v w d hd hl hw _ => cut_more p hr ht hn hd hl hw) (fun u v d hd hl hv hi => .inr (cut_line p hr ht hn hd hl hv hi))
    (e0.symm ▸ Or.inl h) hx
  rw [e0] at h3
  exact h3

/-- The connection is awaited and closed. -/
theorem cut_long (h : Chat c apn addr t0 T (at_ .finalizeConnect .cipstart (some b!"0, CONNECT OK") .intermediate true) d) {b : Beat}
    (hb : Answers (await b!"0, CONNECT OK" (b!"+CIPRXGET: 1,0" :: b!"0, CLOSED" :: b!"0, CONNECT FAIL" :: errors800)) b) :
    Chat c apn addr t0 (T ++ [b!"AT+CIPSHUT\r\n"]) (at_ .finalizeDisconnect .okReply (some b!"SHUT OK") .intermediate)
      (exec (step p) d (b.ops n)) := by
  have e0 := Conf.mid_nil hw
  refine exec_beat (a := await b!"0, CONNECT OK" (b!"+CIPRXGET: 1,0" :: b!"0, CLOSED" :: b!"0, CONNECT FAIL" :: errors800))
    (P := fun u => Cut (c.mid u) apn addr t0 T) step_irq (fun u d hd => cut_idle p hd)
    (fun u v w d hd hl hw _ => cut_more p hr ht hn hd hl hw)
    (fun u v d hd hl hv hi => .inr (cut_line p hr ht hn hd hl hv fun w hw => hi w (by
      simp only [List.mem_cons] at hw ⊢
      rcases hw with x | x | x | x <;> simp [x])))
    (fun u v d hd hl hv hx => ?_) (fun d hd => wait_idle p hd (.inl (by simp)) (by simp)) (e0.symm ▸ Or.inl h) hb
  have hx : b!"0, CONNECT OK" <+: u ++ v := hx
  show Chat _ _ _ _ _ _ (run p _ true)
  rcases hd with hd | hd
  · obtain ⟨g, h1, h2, h3, h4, e⟩ := run_heard (p := p) hd hn hl hv hr
    rw [e0] at h1
    have hpl : parseLine p g = ({ g with wait := none, disconnectPending := false, snd := .sendCipshut, rep := .okReply }, false) := by
      refine (parseLine_eq (isError_clear h2 (clear_of hx (by decide))) (parseWait_good h2 h1.wait (by decide) hx)
        (b := { g with wait := none, disconnectPending := false, snd := .sendCipshut, rep := .okReply }) ?_).trans ?_
      · unfold parseReply
        rw [show ({ g with wait := none } : D).rep = .cipstart from h1.rep]
        dsimp only
        unfold Dev.handleDisconnect
        rw [if_pos (by rw [h1.disc]), if_pos (by rw [h1.disc])]
      · rw [checkState_clear (d := ({ g with wait := none, disconnectPending := false, snd := .sendCipshut, rep := .okReply } : D))
          ⟨h2.text, h2.zero, h2.fill⟩ (clear_of hx (by decide))]
    have h5 : Chat c apn addr t0 T (at_ .sendCipshut .okReply none .intermediate)
        ({ g with wait := none, disconnectPending := false, snd := .sendCipshut, rep := .okReply } : D) := by
      moved h1
    rw [e, hpl]
    simp only [Bool.false_eq_true, if_false]
    rw [proceed_act h5 rfl rfl (by show 20 ≤ g.ser.txFree; omega)]
    exact act_cipshut h5 (by show _ ≤ g.ser.txFree; rw [h3]; simp; omega)
  · obtain ⟨g, h1, h2, h3, h4, e⟩ := run_heard (p := p) hd hn hl hv hr
    rw [e0] at h1
    have h5 : Chat c apn addr t0 T (at_ .sendCipshut .okReply none .intermediate) ({ g with wait := none } : D) := by
      moved h1
    rw [e, parseLine_eq (isError_clear h2 (clear_of hx (by decide))) (parseWait_good h2 h1.wait (by decide) hx) (parseReply_ok h1.rep),
      checkState_clear (d := ({ g with wait := none } : D)) ⟨h2.text, h2.zero, h2.fill⟩ (clear_of hx (by decide))]
    simp only [Bool.false_eq_true, if_false]
    rw [proceed_act h5 rfl rfl (by show 20 ≤ g.ser.txFree; omega)]
    exact act_cipshut h5 (by show _ ≤ g.ser.txFree; rw [h3]; simp; omega)

/-- The rest of the dialogue. -/
theorem after_ok {a : List Byte} {r : Peer} (hk : r.Ok) (h0 : (0 : Byte) ∉ a) (hc : c.host = some r.host) (hp : c.port = r.port.toNat)
    (hy : c.typ = r.typ) (hx : ∀ t ∈ says (open800 a r), t.length ≤ c.tx) (hd : r.host.length + 20 ≤ c.tx) {k : Nat} (hk8 : k ≤ 8)
    {bs : List Beat} (hb : Dialogue (after800 a r k) bs) (hs : ∀ b ∈ bs, b.Slow) (h : StageD true c a r t0 T k d) :
    ∃ addr, Down c (some a) addr t0 (T ++ says ((open800 a r).take k) ++ says (after800 a r k)) (exec (step p) d (Spec.ops n bs)) := by
  have hst := open_stageD (dp := true) (T := T) (t0 := t0) p hr ht hn hI hw hk h0 hc hp hy hx hd
  unfold after800 remaining at hb ⊢
  by_cases hk3 : k ≤ 4
  · rw [if_pos hk3] at hb ⊢
    obtain ⟨l1, l2, rfl, h1, h2⟩ := hb.split
    cases h2 with
    | cons h2 h3 =>
      cases h3 with
      | cons h3 h6 =>
      cases h6
      rename_i b1 b2
      have h4 := exec_between (as := open800 a r) (N := 4) (i := 0) (show 4 ≤ 9 by omega) (fun k hk d b _ hN hd hb => hst k hk d b (.inr ⟨by omega, by omega⟩) hd hb)
        (Nat.zero_le _) hk3 h1 h
      refine ⟨none, ?_⟩
      rw [ops_append, exec_append, says_append, ← List.append_assoc, List.append_assoc T, ← says_drop _ hk3]
      show Down _ _ _ _ _ (exec (step p) _ (b1.ops n ++ (b2.ops n ++ [])))
      rw [List.append_nil, exec_append]
      exact shut_ok p hr ht hn hI hw (cut_short p hr ht hn hI hw h4 h2 (hs b1 (by simp))) h3
  · rw [if_neg hk3] at hb ⊢
    change Dialogue (((open800 a r).take 8).drop k ++ _) _ at hb
    show ∃ addr, Down _ _ _ _ (_ ++ says (((open800 a r).take 8).drop k ++ _)) _
    obtain ⟨l1, l2, rfl, h1, h2⟩ := hb.split
    cases h2 with
    | cons h2 h3 =>
      cases h3 with
      | cons h3 h6 =>
      cases h6
      rename_i b1 b2
      have h4 := exec_between (as := open800 a r) (N := 8) (i := 5) (show 8 ≤ 9 by omega) (fun k hk d b hi hN hd hb => hst k hk d b (.inr ⟨by omega, by omega⟩) hd hb)
        (by omega) hk8 h1 h
      refine ⟨some r.addr, ?_⟩
      rw [ops_append, exec_append, says_append, ← List.append_assoc, List.append_assoc T, ← says_drop _ hk8]
      show Down _ _ _ _ _ (exec (step p) _ (b1.ops n ++ (b2.ops n ++ [])))
      rw [List.append_nil, exec_append]
      exact shut_ok p hr ht hn hI hw (cut_long p hr ht hn hI hw h4 h2) h3

/-- A connection that is given up. -/
theorem givenUp_ok {a : List Byte} {r : Peer} (hk : r.Ok) (h0 : (0 : Byte) ∉ a) (hx : ∀ t ∈ visit800 a r, t.length ≤ c.tx)
    (hd : r.host.length + 20 ≤ c.tx) (h : Down c apn addr t0 T d) {k : Nat} (hk8 : k < (open800 a r).length) {v : GivenUp}
    (hv : v.Ok ((open800 a r).take k) (after800 a r k) (Clear errors800)) :
    ∃ addr, Down (c.to r) (some a) addr t0 (T ++ b!"ATE0\r\n" :: (says ((open800 a r).take k) ++ says (after800 a r k)))
      (exec (step p) d (setup7x00 a r ++ v.ops n)) := by
  have hk9 : k ≤ 8 := Nat.le_of_lt_succ hk8
  have h1 := arrive_ok p hr ht hn hI hw hk h0 hx hd h v.dial (Nat.le_of_lt hk8) hv.up
  have h2 := exec_giveUp (P := StageD false (c.to r) a r t0 (T ++ [b!"ATE0\r\n"]) k) (Q := StageD true (c.to r) a r t0 (T ++ [b!"ATE0\r\n"]) k)
    (step := step p) (fun d hd => StageD.disconnect hk9 hd) (fun d hd => StageD.run hk9 hd) h1 v.giveUp
  obtain ⟨ad, h3⟩ := after_ok (c := c.to r) p hr ht hn hI hw hk h0 rfl rfl rfl (fun t m => hx t (by unfold visit800; simp [m])) hd hk9 hv.down hv.slow h2
  refine ⟨ad, ?_⟩
  have e0 : (c.to r).mid [] = c.to r := Conf.mid_nil hw
  have h4 := exec_hearAll (n := n) (P := fun u => Down ((c.to r).mid u) (some a) ad t0 (T ++ [b!"ATE0\r\n"] ++ says ((open800 a r).take k) ++ says (after800 a r k))) step_irq
    (fun u d hd => down_idle (c := (c.to r).mid u) p hr ht hn hI hd)
    (fun u v w d hd hl hw0 _ => down_more (c := c.to r) p hr ht hn hI hd hl hw0)
    (fun u v d hd hl hv hs => down_noise (c := c.to r) p hr ht hn hI hd hl hv hs)
    (e0.symm ▸ h3) hv.rest
  rw [e0, ← exec_append, ← exec_append, ← exec_append] at h4
  have e : T ++ [b!"ATE0\r\n"] ++ says ((open800 a r).take k) ++ says (after800 a r k) =
      T ++ b!"ATE0\r\n" :: (says ((open800 a r).take k) ++ says (after800 a r k)) := by simp
  have e2 : setup7x00 a r ++ (dial v.dial ++ Spec.ops n v.up) ++ (giveUp v.giveUp ++ (Spec.ops n v.down ++ hearAll n v.rest)) =
      setup7x00 a r ++ v.ops n := by simp [GivenUp.ops]
  rw [e, e2] at h4
  exact h4

end
end Sim800

namespace Espressif

variable {p : Platform} {c : Conf} {w : Option Wifi} {t0 : List Ev} {T : List (List Byte)} {q : St Snd Rep}
  {d g : D} {n : Nat} {l : List Byte}

theorem StageD.disconnect {a : Wifi} {r : Peer} : ∀ {k : Nat}, k ≤ 6 → StageD false p c a r t0 T k d →
    StageD true p c a r t0 T k (step p d .disconnect)
  | 0, _, h | 1, _, h | 2, _, h | 3, _, h | 4, _, h | 5, _, h | 6, _, h => Talk.disconnect h (by simp)
  | k + 7, hk, _ => by omega

theorem StageD.run {a : Wifi} {r : Peer} {dp : Bool} : ∀ {k : Nat}, k ≤ 6 → StageD dp p c a r t0 T k d →
    StageD dp p c a r t0 T k (step p d (.run true))
  | 0, _, h | 1, _, h | 2, _, h | 3, _, h | 4, _, h | 5, _, h | 6, _, h => wait_idle p h (by simp) (by simp)
  | k + 7, hk, _ => by omega

section
variable (p) (hr : 60 ≤ c.rx) (ht : 20 ≤ c.tx) (hn : c.tx ≤ n) (hI : c.Idle) (hm : c.part = [])
include hr ht hn hI hm

/-- The connection is opened and closed. -/
theorem cut_long {cs : ConnState} (h : Chat p c w t0 T (at_ .finalizeConnect .okReply (some b!"OK") cs true) d) {b : Beat}
    (hb : Answers (awaitPlain c.typ b!"OK" errorsEsp) b) (hs : b.Slow) :
    Chat p c w t0 (T ++ [b!"AT+CIPCLOSE\r\n"]) (at_ .sendCwqap .okReply (some b!"OK") .intermediate)
      (exec (step p) d (b.ops n)) := by
  refine exec_slow3 (Q0 := fun d => Chat p c w t0 T (at_ .connected .okReply none .connected true) d ∧ d.ipConnected = true ∧ d.ser.txFree = c.tx)
    (Q1 := fun d => Chat p c w t0 T (at_ .sendCipclose .okReply none .connected) d ∧ d.ipConnected = true ∧ d.ser.txFree = c.tx)
    (a := awaitPlain c.typ b!"OK" errorsEsp) (fun b' hb' W h0 hq => ?_) (fun d hd => ?_) (fun d hd => ?_)
    (fun d hd => wait_idle p hd (by simp) (by simp)) hb hs
  · refine stage_ok p hr ht hn hm (by decide) (fun g hg hf => h0 _ ?_) hq h hb'
    have := act_finalizeConnect hg
    exact ⟨this.1, this.2.1, by rw [this.2.2]; exact hf⟩
  · show Chat _ _ _ _ _ _ (run p d true) ∧ (run p d true).ipConnected = _ ∧ (run p d true).ser.txFree = _
    rw [run_calm hd.1 (by simp), proceed_act hd.1 rfl rfl (by rw [hd.2.2]; exact ht)]
    have := act_hangUp hI hd.1 hd.2.1
    exact ⟨this.1, this.2.2, by rw [this.2.1]; exact hd.2.2⟩
  · show Chat _ _ _ _ _ _ (run p d true)
    rw [run_calm hd.1 (by simp), proceed_act hd.1 rfl rfl (by rw [hd.2.2]; exact ht)]
    exact act_cipclose hd.1 hd.2.1 (by rw [hd.2.2]; simp; omega)

/-- The rest of the dialogue. -/
theorem after_ok {a : Wifi} {r : Peer} (hk : r.Ok) (hc : c.host = some r.host) (hp : c.port = r.port.toNat)
    (hy : c.typ = r.typ) (hx : ∀ t ∈ says (openEsp a r), t.length ≤ c.tx) {k : Nat} (hk8 : k ≤ 6)
    {bs : List Beat} (hb : Dialogue (afterEsp a r k) bs) (hs : ∀ b ∈ bs, b.Slow) (h : StageD true p c a r t0 T k d) :
    Down p c (some a) t0 (T ++ says ((openEsp a r).take k) ++ says (afterEsp a r k)) (exec (step p) d (Spec.ops n bs)) := by
  have hst := open_stageD (dp := true) (T := T) (t0 := t0) p hr ht hn hI hm hk hc hp hy hx
  unfold afterEsp at hb ⊢
  obtain ⟨l1, l2, rfl, h1, h2⟩ := hb.split
  cases h2 with
  | cons h2 h3 =>
    rename_i b bs
    have h4 := exec_between (as := openEsp a r) (N := 6) (i := 0) (show 6 ≤ 7 by omega) (fun k hk d b hi hN hd hb => hst k hk d b (.inr (by omega)) hd hb)
      (by omega) hk8 h1 h
    rw [ops_append, exec_append, says_append, ← List.append_assoc, List.append_assoc T, ← says_drop _ hk8]
    show Down _ _ _ _ _ (exec (step p) _ (b.ops n ++ Spec.ops n bs))
    rw [exec_append]
    have h5 := close_ok p hr ht hn hI hm hy (cut_long p hr ht hn hI hm h4 (hy ▸ h2) (hs b (by simp))) h3
    rw [List.append_assoc _ [_]] at h5
    exact h5

/-- A connection that is given up. -/
theorem givenUp_ok {a : Wifi} {r : Peer} (hk : r.Ok) (hq : a.Ok) (hx : ∀ t ∈ visitEsp a r, t.length ≤ c.tx)
    (h : Down p c w t0 T d) {k : Nat} (hk8 : k < (openEsp a r).length) {v : GivenUp}
    (hv : v.Ok ((openEsp a r).take k) (afterEsp a r k) (restEsp r)) :
    Down p (c.to r) (some a) t0 (T ++ b!"ATE0\r\n" :: (says ((openEsp a r).take k) ++ says (afterEsp a r k)))
      (exec (step p) d (setupEsp a r ++ v.ops n)) := by
  have hk9 : k ≤ 6 := Nat.le_of_lt_succ hk8
  have h1 := arrive_ok p hr ht hn hI hm hk hq hx h v.dial (Nat.le_of_lt hk8) hv.up
  have h2 := exec_giveUp (P := StageD false p (c.to r) a r t0 (T ++ [b!"ATE0\r\n"]) k) (Q := StageD true p (c.to r) a r t0 (T ++ [b!"ATE0\r\n"]) k)
    (step := step p) (fun d hd => StageD.disconnect hk9 hd) (fun d hd => StageD.run hk9 hd) h1 v.giveUp
  have h3 := after_ok (c := c.to r) p hr ht hn hI hm hk rfl rfl rfl (fun t m => hx t (by unfold visitEsp; simp [m])) hk9 hv.down hv.slow h2
  have e0 : (c.to r).mid [] = c.to r := Conf.mid_nil hm
  have h4 := exec_hearAll (n := n) (P := fun u => Down p ((c.to r).mid u) (some a) t0 (T ++ [b!"ATE0\r\n"] ++ says ((openEsp a r).take k) ++ says (afterEsp a r k))) step_irq
    (fun u d hd => down_idle (c := (c.to r).mid u) p hr ht hn hI hd)
    (fun u v w d hd hl hw0 hs => down_more (c := c.to r) p hr ht hn hI hd hl hw0 hs.2)
    (fun u v d hd hl hv hs => down_noise (c := c.to r) p hr ht hn hI hd hl hv hs)
    (e0.symm ▸ h3) hv.rest
  rw [e0, ← exec_append, ← exec_append, ← exec_append] at h4
  have e : T ++ [b!"ATE0\r\n"] ++ says ((openEsp a r).take k) ++ says (afterEsp a r k) =
      T ++ b!"ATE0\r\n" :: (says ((openEsp a r).take k) ++ says (afterEsp a r k)) := by simp
  have e2 : setupEsp a r ++ (dial v.dial ++ Spec.ops n v.up) ++ (giveUp v.giveUp ++ (Spec.ops n v.down ++ hearAll n v.rest)) =
      setupEsp a r ++ v.ops n := by simp [GivenUp.ops]
  rw [e, e2] at h4
  exact h4

end
end Espressif

namespace CC1352P7

variable {p : Platform} {c : Conf} {t0 : List Ev} {T : List (List Byte)} {q : St Snd Rep}
  {d g : D} {n : Nat} {l : List Byte}

theorem StageD.disconnect {r : Peer} : ∀ {k : Nat}, k ≤ 1 → StageD false p c r t0 T k d →
    StageD true p c r t0 T k (step p d .disconnect)
  | 0, _, h | 1, _, h => Talk.disconnect h (by simp)
  | k + 2, hk, _ => by omega

theorem StageD.run {r : Peer} {dp : Bool} : ∀ {k : Nat}, k ≤ 1 → StageD dp p c r t0 T k d →
    StageD dp p c r t0 T k (step p d (.run true))
  | 0, _, h | 1, _, h => wait_idle p h (by simp) (by simp)
  | k + 2, hk, _ => by omega

section
variable (p) (hr : 60 ≤ c.rx) (ht : 20 ≤ c.tx) (hn : c.tx ≤ n) (hI : c.Idle) (hm : c.part = [])
include hr ht hn hI hm

/-- The connection is opened and closed. -/
theorem cut_long {cs : ConnState} (h : Chat p c t0 T (at_ .finalizeConnect .okReply (some b!"OK") cs true) d) {b : Beat}
    (hb : Answers (await b!"OK" [b!"ERROR"]) b) (hs : b.Slow) :
    Chat p c t0 (T ++ [b!"AT+CIPCLOSE\r\n"]) (at_ .finalizeDisconnect .okReply (some b!"OK") .intermediate)
      (exec (step p) d (b.ops n)) := by
  refine exec_slow3 (Q0 := fun d => Chat p c t0 T (at_ .connected .okReply none .connected true) d ∧ d.ipConnected = true ∧ d.ser.txFree = c.tx)
    (Q1 := fun d => Chat p c t0 T (at_ .sendCipclose .okReply none .connected) d ∧ d.ipConnected = true ∧ d.ser.txFree = c.tx)
    (a := await b!"OK" [b!"ERROR"]) (fun b' hb' W h0 hq => ?_) (fun d hd => ?_) (fun d hd => ?_)
    (fun d hd => wait_idle p hd (by simp) (by simp)) hb hs
  · refine stage_ok p hr ht hn hm (by decide) (fun g hg hf => h0 _ ?_) hq h hb'
    have := act_finalizeConnect hg
    exact ⟨this.1, this.2.1, by rw [this.2.2]; exact hf⟩
  · show Chat _ _ _ _ _ (run p d true) ∧ (run p d true).ipConnected = _ ∧ (run p d true).ser.txFree = _
    rw [run_calm hd.1 (by simp), proceed_act hd.1 rfl rfl (by rw [hd.2.2]; exact ht)]
    have := act_hangUp hI hd.1 hd.2.1
    exact ⟨this.1, this.2.2, by rw [this.2.1]; exact hd.2.2⟩
  · show Chat _ _ _ _ _ (run p d true)
    rw [run_calm hd.1 (by simp), proceed_act hd.1 rfl rfl (by rw [hd.2.2]; exact ht)]
    exact act_cipclose hd.1 (by rw [hd.2.2]; simp; omega)

/-- The rest of the dialogue. -/
theorem after_ok {r : Peer} (hk : r.Ok) (hc : c.host = some r.host) (hp : c.port = r.port.toNat)
    (hy : c.typ = r.typ) (hx : ∀ t ∈ says (openCC r), t.length ≤ c.tx) {k : Nat} (hk8 : k ≤ 1)
    {bs : List Beat} (hb : Dialogue (afterCC r k) bs) (hs : ∀ b ∈ bs, b.Slow) (h : StageD true p c r t0 T k d) :
    Down p c t0 (T ++ says ((openCC r).take k) ++ says (afterCC r k)) (exec (step p) d (Spec.ops n bs)) := by
  have hst := open_stageD (dp := true) (T := T) (t0 := t0) p hr ht hn hI hm hk hc hp hy hx
  unfold afterCC at hb ⊢
  obtain ⟨l1, l2, rfl, h1, h2⟩ := hb.split
  cases h2 with
  | cons h2 h3 =>
    rename_i b bs
    have h4 := exec_between (as := openCC r) (N := 1) (i := 0) (show 1 ≤ 2 by omega) (fun k hk d b hi hN hd hb => hst k hk d b (.inr (by omega)) hd hb)
      (by omega) hk8 h1 h
    rw [ops_append, exec_append, says_append, ← List.append_assoc, List.append_assoc T, ← says_drop _ hk8]
    show Down _ _ _ _ (exec (step p) _ (b.ops n ++ Spec.ops n bs))
    rw [exec_append]
    have h5 := close_ok p hr ht hn hI hm (cut_long p hr ht hn hI hm h4 h2 (hs b (by simp))) h3
    rw [List.append_assoc _ [_]] at h5
    exact h5

/-- A connection that is given up. -/
theorem givenUp_ok {r : Peer} (hk : r.Ok) (hx : ∀ t ∈ visitCC r, t.length ≤ c.tx)
    (h : Down p c t0 T d) {k : Nat} (hk8 : k < (openCC r).length) {v : GivenUp}
    (hv : v.Ok ((openCC r).take k) (afterCC r k) (Clear [b!"ERROR"])) :
    Down p (c.to r) t0 (T ++ b!"ATE0\r\n" :: (says ((openCC r).take k) ++ says (afterCC r k)))
      (exec (step p) d (setupCC r ++ v.ops n)) := by
  have hk9 : k ≤ 1 := Nat.le_of_lt_succ hk8
  have h1 := arrive_ok p hr ht hn hI hm hk hx h v.dial (Nat.le_of_lt hk8) hv.up
  have h2 := exec_giveUp (P := StageD false p (c.to r) r t0 (T ++ [b!"ATE0\r\n"]) k) (Q := StageD true p (c.to r) r t0 (T ++ [b!"ATE0\r\n"]) k)
    (step := step p) (fun d hd => StageD.disconnect hk9 hd) (fun d hd => StageD.run hk9 hd) h1 v.giveUp
  have h3 := after_ok (c := c.to r) p hr ht hn hI hm hk rfl rfl rfl (fun t m => hx t (by unfold visitCC; simp [m])) hk9 hv.down hv.slow h2
  have e0 : (c.to r).mid [] = c.to r := Conf.mid_nil hm
  have h4 := exec_hearAll (n := n) (P := fun u => Down p ((c.to r).mid u) t0 (T ++ [b!"ATE0\r\n"] ++ says ((openCC r).take k) ++ says (afterCC r k))) step_irq
    (fun u d hd => down_idle (c := (c.to r).mid u) p hr ht hn hI hd)
    (fun u v w d hd hl hw0 hs => down_more (c := c.to r) p hr ht hn hI hd hl hw0)
    (fun u v d hd hl hv hs => down_noise (c := c.to r) p hr ht hn hI hd hl hv hs)
    (e0.symm ▸ h3) hv.rest
  rw [e0, ← exec_append, ← exec_append, ← exec_append] at h4
  have e : T ++ [b!"ATE0\r\n"] ++ says ((openCC r).take k) ++ says (afterCC r k) =
      T ++ b!"ATE0\r\n" :: (says ((openCC r).take k) ++ says (afterCC r k)) := by simp
  have e2 : setupCC r ++ (dial v.dial ++ Spec.ops n v.up) ++ (giveUp v.giveUp ++ (Spec.ops n v.down ++ hearAll n v.rest)) =
      setupCC r ++ v.ops n := by simp [GivenUp.ops]
  rw [e, e2] at h4
  exact h4

end
end CC1352P7

end Verif
