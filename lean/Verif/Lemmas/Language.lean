import Verif.Spec.Language
import Verif.Lemmas.Order
import Verif.Lemmas.OneTx

/-! The texts of the commands of one `run()`. -/

namespace Verif

open Dev Spec

theorem texts_quiet {a : List Ev} (h : ∀ x ∈ a, (sent x).isSome = false ∧ isArg x = false) (b : List Ev) :
    texts (a ++ b) = texts b := by
  induction a with
  | nil => rfl
  | cons x l ih =>
    have hx := h x (by simp)
    have hl := ih fun y hy => h y (by simp [hy])
    cases x <;> simp_all [texts, sent]

theorem more_args {rest : List Ev} (h : rest.all isArg = true) : more rest = args rest ∧ texts rest = [] := by
  induction rest with
  | nil => exact ⟨rfl, rfl⟩
  | cons x l ih =>
    simp only [List.all_cons, Bool.and_eq_true] at h
    obtain ⟨h1, h2⟩ := ih h.2
    cases x <;> simp [isArg] at h
    exact ⟨by simp [more, args, h1], by simp [texts, h2]⟩

/-- All command texts from `d` to `e` are in the language. -/
def Speaks (L : List Byte → Prop) (d e : Dev S R X) : Prop :=
  ∃ new, e.trace = d.trace ++ new ∧ ∀ s ∈ texts new, L s

section
variable {L : List Byte → Prop} {a b c : Dev S R X}

theorem Speaks.same (h : b.trace = a.trace) : Speaks L a b := ⟨[], by simp [h], by simp [texts]⟩

theorem Speaks.after {new : List Ev} (h : Speaks L b c) (ht : b.trace = a.trace ++ new)
    (hn : ∀ x ∈ new, (sent x).isSome = false ∧ isArg x = false) : Speaks L a c := by
  obtain ⟨y, h3, h4⟩ := h
  exact ⟨new ++ y, by rw [h3, ht, List.append_assoc], by rw [texts_quiet hn]; exact h4⟩

theorem Speaks.says {k : Kind} (h : Says k a b) (hk : ∀ w t, k = .cmd w t → L t) : Speaks L a b := by
  cases k with
  | quiet => exact .same h
  | pay => obtain ⟨bs, h⟩ := h; exact ⟨_, h, by simp [texts]⟩
  | data => obtain ⟨bs, h⟩ := h; exact ⟨_, h, by simp [texts]⟩
  | cmd w t =>
    obtain ⟨g, rest, ht, ha, hx⟩ := h
    obtain ⟨h1, h2⟩ := more_args ha
    refine ⟨_, ht, ?_⟩
    simp only [texts, h1, h2, List.mem_singleton]
    rintro s rfl
    rw [← hx]
    exact hk w t rfl

theorem Speaks.moves {l : List (Kind × S × R)} (h : Moves l a b) (hl : ∀ m ∈ l, ∀ w t, m.1 = .cmd w t → L t) :
    Speaks L a b := by
  obtain ⟨k, hk, hs⟩ := h
  exact .says hs (hl _ hk)

theorem speaks_fill {stop : Mem → Nat → Byte → Option R} (h : Speaks L (a.fillLine stop).1 c) : Speaks L a c := by
  unfold fillLine at h
  split at h
  · dsimp only at h
    split at h
    · exact h.after (new := []) (by simp) (by simp)
    · exact h.after (new := [.line _]) rfl (by simp [sent, isArg])
  · exact h

end

theorem allDigits_dec5 (n : Nat) : AllDigits (dec5 n) := fun c hc => dec5_digits n c hc
theorem allDigits_dec (n : Nat) : AllDigits (dec n) := fun c hc => dec_digits n c hc
theorem decimal_dec5 {n : Nat} (h : n < 65536) : Decimal (dec5 n) n :=
  ⟨allDigits_dec5 n, dec5_val (by omega)⟩

namespace Sim7x00

/-- The settings of the application. -/
def Set (d : D) := (d.host, d.port, d.typ, d.ext.apn)

/-- The language of the driver with its present settings. -/
def lang (d : D) : List Byte → Prop := LangSim7x00 (d.host.getD []) (cstr d.ext.ip.cells) (d.ext.apn.getD []) d.port d.typ

theorem lang_moves {d : D} (hp : d.port < 65536) : ∀ m ∈ moves d, ∀ w t, m.1 = .cmd w t → lang d t := by
  intro m hm w t hk
  unfold lang
  cases hs : d.snd
  case notConnected =>
    simp only [moves, hs, List.mem_cons, List.not_mem_nil, or_false] at hm
    rcases hm with rfl | rfl
    · simp at hk
    · simp at hk
  case connecting =>
    simp only [moves, hs, List.mem_cons, List.not_mem_nil, or_false] at hm
    subst hm
    simp only [Kind.cmd.injEq] at hk
    obtain ⟨rfl, rfl⟩ := hk
    exact .fixed _ (by decide)
  case sendCgsockcont =>
    simp only [moves, hs, List.mem_cons, List.not_mem_nil, or_false] at hm
    subst hm
    simp only [Kind.cmd.injEq] at hk
    obtain ⟨rfl, rfl⟩ := hk
    exact .context
  case sendCsocksetpn =>
    simp only [moves, hs, List.mem_cons, List.not_mem_nil, or_false] at hm
    subst hm
    simp only [Kind.cmd.injEq] at hk
    obtain ⟨rfl, rfl⟩ := hk
    exact .fixed _ (by decide)
  case sendCipmode =>
    simp only [moves, hs, List.mem_cons, List.not_mem_nil, or_false] at hm
    subst hm
    simp only [Kind.cmd.injEq] at hk
    obtain ⟨rfl, rfl⟩ := hk
    exact .fixed _ (by decide)
  case sendNetopen =>
    simp only [moves, hs, List.mem_cons, List.not_mem_nil, or_false] at hm
    rcases hm with rfl | rfl
    · simp only [Kind.cmd.injEq] at hk
      obtain ⟨rfl, rfl⟩ := hk
      exact .fixed _ (by decide)
    · simp at hk
  case sendCiprxget =>
    simp only [moves, hs, List.mem_cons, List.not_mem_nil, or_false] at hm
    subst hm
    simp only [Kind.cmd.injEq] at hk
    obtain ⟨rfl, rfl⟩ := hk
    exact .fixed _ (by decide)
  case sendDnsQuery =>
    simp only [moves, hs, List.mem_cons, List.not_mem_nil, or_false] at hm
    rcases hm with rfl | rfl
    · simp only [Kind.cmd.injEq] at hk
      obtain ⟨rfl, rfl⟩ := hk
      exact .dns
    · simp at hk
  case sendCipopen =>
    simp only [moves, hs, List.mem_cons, List.not_mem_nil, or_false] at hm
    subst hm
    simp only [Kind.cmd.injEq] at hk
    obtain ⟨rfl, rfl⟩ := hk
    split
    · rename_i hu; exact .openUdp _ hu (decimal_dec5 hp)
    · rename_i hu; exact .openTcp _ hu (decimal_dec5 hp)
  case finalizeConnect =>
    simp only [moves, hs, List.mem_cons, List.not_mem_nil, or_false] at hm
    subst hm
    simp at hk
  case connected =>
    simp only [moves, hs, List.mem_cons, List.not_mem_nil, or_false] at hm
    rcases hm with rfl | rfl | rfl | rfl
    · simp only [Kind.cmd.injEq] at hk
      obtain ⟨rfl, rfl⟩ := hk
      split
      · rename_i hu; exact .sendUdp _ _ hu (allDigits_dec5 _) (decimal_dec5 hp)
      · rename_i hu; exact .sendTcp _ hu (allDigits_dec5 _)
    · simp at hk
    · simp at hk
    · simp at hk
  case sendData =>
    simp only [moves, hs, List.mem_cons, List.not_mem_nil, or_false] at hm
    subst hm
    simp at hk
  case sendCiprxget4 =>
    simp only [moves, hs, List.mem_cons, List.not_mem_nil, or_false] at hm
    subst hm
    simp only [Kind.cmd.injEq] at hk
    obtain ⟨rfl, rfl⟩ := hk
    exact .fixed _ (by decide)
  case sendCiprxget2 =>
    simp only [moves, hs, List.mem_cons, List.not_mem_nil, or_false] at hm
    rcases hm with rfl | rfl | rfl | rfl | rfl
    · simp only [Kind.cmd.injEq] at hk
      obtain ⟨rfl, rfl⟩ := hk
      exact .request _ (allDigits_dec _)
    · simp at hk
    · simp at hk
    · simp at hk
    · simp at hk
  case waitReceive =>
    simp only [moves, hs, List.mem_cons, List.not_mem_nil, or_false] at hm
    subst hm
    simp at hk
  case receiving =>
    simp only [moves, hs, List.mem_cons, List.not_mem_nil, or_false] at hm
    rcases hm with rfl | rfl | rfl | rfl
    · simp at hk
    · simp at hk
    · simp at hk
    · simp at hk
  case ipUnconnected =>
    simp only [moves, hs, List.mem_cons, List.not_mem_nil, or_false] at hm
    rcases hm with rfl | rfl | rfl
    · simp at hk
    · simp at hk
    · simp at hk
  case sendNetclose =>
    simp only [moves, hs, List.mem_cons, List.not_mem_nil, or_false] at hm
    subst hm
    simp only [Kind.cmd.injEq] at hk
    obtain ⟨rfl, rfl⟩ := hk
    exact .fixed _ (by decide)
  case finalizeDisconnect =>
    simp only [moves, hs, List.mem_cons, List.not_mem_nil, or_false] at hm
    subst hm
    simp at hk
  case serialError =>
    simp only [moves, hs, List.mem_cons, List.not_mem_nil, or_false] at hm
    subst hm
    simp at hk
  case dnsError =>
    simp only [moves, hs, List.mem_cons, List.not_mem_nil, or_false] at hm
    subst hm
    simp at hk

theorem dns_apn (d : D) : d.parseDnsReply.1.ext.apn = d.ext.apn := by
  unfold SimDev.parseDnsReply
  dsimp only
  (repeat' split) <;> rfl

theorem id_apn (d : D) : d.parseIDReply.1.ext.apn = d.ext.apn := by
  have hg : ∀ s, (SimDev.parseIDReply.go d s).1.ext.apn = d.ext.apn := by
    intro s
    unfold SimDev.parseIDReply.go
    (try dsimp only)
    (repeat' split) <;> rfl
  unfold SimDev.parseIDReply
  (try dsimp only)
  (repeat' split) <;> first | rfl | exact hg _

theorem set_parseLine (p : Platform) (d : D) : Set (parseLine p d).1 = Set d := by
  have hw : Set (parseWait d).1 = Set d := by
    unfold parseWait
    (repeat' split) <;> rfl
  have hc : ∀ e : D, Set (checkState e) = Set e := by
    intro e; unfold checkState; split <;> simp [Set]
  have hp : ∀ e : D, Set (parseReply p e).1 = Set e := by
    intro e
    unfold parseReply
    split <;> (try dsimp only) <;> (repeat' split) <;> simp [Set, dns_apn, id_apn]
  unfold parseLine
  dsimp only
  split
  · exact hw
  · split
    · exact (hp _).trans hw
    · exact (hc _).trans ((hp _).trans hw)

theorem set_fillLineBuffer (d : D) : Set (SimDev.fillLineBuffer d).1 = Set d := by
  simp [Set, SimDev.fillLineBuffer]

theorem set_flushIfDisconnecting (d : D) : Set (flushIfDisconnecting d) = Set d := by
  unfold flushIfDisconnecting
  split <;> rfl

theorem set_handleReset (d : D) : Set (handleReset d) = Set d := by
  unfold handleReset 
  dsimp only
  (repeat' split) <;> rfl

theorem act_ip (d : D) : (act d).ext.ip = d.ext.ip := by
  unfold act
  split <;> (try unfold actConnected) <;> (try unfold actCiprxget2) <;> (try unfold actReceiving) <;>
    (try unfold actCgsockcont) <;> (try unfold actCipopen) <;> (try unfold handleConnect) <;>
    (try dsimp only) <;> (repeat' split) <;> simp

theorem proceed_ip (d : D) : (proceed d).ext.ip = d.ext.ip := by
  unfold proceed
  split
  · rfl
  · split
    · rfl
    · show _ = d.askSpace.ext.ip
      generalize d.askSpace = d
      unfold sendNext
      split
      · simp
      · have h : (SimDev.sendIDRequest d iccidCommand).1.ext.ip = d.ext.ip := by
          unfold SimDev.sendIDRequest
          (try dsimp only)
          (repeat' split) <;> simp
        dsimp only
        split
        · exact h
        · exact (act_ip _).trans h

theorem lang_ident {d e : D} (h : e.host = d.host ∧ e.port = d.port ∧ e.typ = d.typ ∧ e.ext.apn = d.ext.apn ∧
    e.ext.ip = d.ext.ip) : lang e = lang d := by
  obtain ⟨h1, h2, h3, h4, h5⟩ := h
  unfold lang
  rw [h1, h2, h3, h4, h5]

theorem proceed_speaks {d : D} (hp : d.port < 65536) : Speaks (lang d) d (proceed d) := by
  unfold proceed
  split
  · exact .same rfl
  · rename_i hw
    split
    · exact .same rfl
    · have hr : d.askSpace.rep = .okReply := by
        show d.rep = .okReply
        cases hx : d.rep <;> simp [hx] at hw <;> rfl
      show Speaks (lang d.askSpace) d.askSpace _
      have hp' : d.askSpace.port < 65536 := hp
      clear hw hp
      generalize d.askSpace = d at *
      unfold sendNext
      split
      · refine .says ((says_sendCommand d b!"AT+CSQ").set rfl) ?_
        intro w t e
        simp only [Kind.cmd.injEq] at e
        obtain ⟨_, rfl⟩ := e
        exact .fixed _ (by decide)
      · dsimp only
        by_cases hq : (SimDev.sendIDRequest d iccidCommand).2 = true
        · rw [if_pos hq]
          obtain ⟨w, hm, g1, g2, ht⟩ := SimDev.sendIDRequest_true hq
          refine ⟨[.cmd w g1, .arg lineEnd g2], (by simpa using ht), ?_⟩
          simp only [texts, more, List.append_nil, List.mem_singleton]
          rintro s rfl
          refine .fixed _ ?_
          simp only [SimDev.idCommands, iccidCommand, List.mem_cons, List.not_mem_nil, or_false] at hm
          rcases hm with rfl | rfl | rfl | rfl | rfl <;> decide
        · rw [if_neg hq]
          have h0 : (SimDev.sendIDRequest d iccidCommand).1.ext.ip = d.ext.ip ∧
              (SimDev.sendIDRequest d iccidCommand).1.ext.apn = d.ext.apn := by
            unfold SimDev.sendIDRequest
            (try dsimp only)
            (repeat' split) <;> simp
          have e : lang d = lang (SimDev.sendIDRequest d iccidCommand).1 :=
            (lang_ident ⟨by simp, by simp, by simp, h0.2, h0.1⟩).symm
          rw [e]
          refine Speaks.after (b := (SimDev.sendIDRequest d iccidCommand).1) (new := [])
            (.moves (act_moves (by simpa using hr)) (lang_moves (by simpa using hp'))) ?_ (by simp)
          rw [(SimDev.sendIDRequest_false (by simpa using hq)).1]; simp

theorem lang_set {d e : D} (h : Set e = Set d) (ip : Mem) (hi : e.ext.ip = ip) :
    e.port = d.port ∧ lang e = LangSim7x00 (d.host.getD []) (cstr ip.cells) (d.ext.apn.getD []) d.port d.typ := by
  unfold Set at h
  simp only [Prod.mk.injEq] at h
  unfold lang
  obtain ⟨h1, h2, h3, h4⟩ := h
  exact ⟨h2, by rw [h1, h2, h3, h4, hi]⟩

theorem work_speaks (p : Platform) {d : D} (hp : d.port < 65536) : Speaks (LangSim7x00 (d.host.getD []) (cstr (work p d).ext.ip.cells) (d.ext.apn.getD []) d.port d.typ) d (work p d) := by
  have hf := set_fillLineBuffer d
  unfold work
  dsimp only
  refine speaks_fill (stop := SimDev.lineStop d.rep) ?_
  show Speaks _ (SimDev.fillLineBuffer d).1 _
  split
  · have h1 := (set_parseLine p (SimDev.fillLineBuffer d).1).trans hf
    have ht := parseLine_trace p (SimDev.fillLineBuffer d).1
    split
    · exact .same ht
    · obtain ⟨h2, h3⟩ := lang_set h1 _ (proceed_ip _).symm
      rw [← h3]
      exact (proceed_speaks (by rw [h2]; exact hp)).after (new := []) (by rw [ht]; simp) (by simp)
  · have h1 := (set_flushIfDisconnecting (SimDev.fillLineBuffer d).1).trans hf
    obtain ⟨h2, h3⟩ := lang_set h1 _ (proceed_ip _).symm
    rw [← h3]
    have hs := proceed_speaks (d := flushIfDisconnecting (SimDev.fillLineBuffer d).1) (by rw [h2]; exact hp)
    revert hs
    generalize proceed (flushIfDisconnecting (SimDev.fillLineBuffer d).1) = e
    generalize lang (flushIfDisconnecting (SimDev.fillLineBuffer d).1) = L
    unfold flushIfDisconnecting
    split
    · intro hs; exact hs.after (new := [.drop _]) rfl (by simp [sent, isArg])
    · exact id

theorem run_speaks (p : Platform) {d : D} (ok : Bool) (hp : d.port < 65536) :
    Speaks (LangSim7x00 (d.host.getD []) (cstr (run p d ok).ext.ip.cells) (d.ext.apn.getD []) d.port d.typ) d (run p d ok) := by
  unfold run
  split
  · unfold tryOpen; split <;> exact .same rfl
  · split
    · exact .same rfl
    · split
      · refine ⟨[.flush, .cmd b!"AT+CRESET" _, .arg lineEnd _], (by simp [handleReset]; exact ⟨rfl, rfl⟩), ?_⟩
        simp only [texts, more, List.append_nil, List.mem_singleton]
        rintro s rfl
        exact .fixed _ (by decide)
      · exact work_speaks p hp

end Sim7x00

namespace Sim800

/-- The settings of the application. -/
def Set (d : D) := (d.host, d.port, d.typ, d.ext.apn)

/-- The language of the driver with its present settings. -/
def lang (d : D) : List Byte → Prop := LangSim800 (d.host.getD []) (cstr d.ext.ip.cells) (d.ext.apn.getD []) d.port d.typ

theorem lang_moves {d : D} (hp : d.port < 65536) : ∀ m ∈ moves d, ∀ w t, m.1 = .cmd w t → lang d t := by
  intro m hm w t hk
  unfold lang
  cases hs : d.snd
  case notConnected =>
    simp only [moves, hs, List.mem_cons, List.not_mem_nil, or_false] at hm
    rcases hm with rfl | rfl
    · simp at hk
    · simp at hk
  case connecting =>
    simp only [moves, hs, List.mem_cons, List.not_mem_nil, or_false] at hm
    subst hm
    simp only [Kind.cmd.injEq] at hk
    obtain ⟨rfl, rfl⟩ := hk
    exact .fixed _ (by decide)
  case sendCiprxget =>
    simp only [moves, hs, List.mem_cons, List.not_mem_nil, or_false] at hm
    subst hm
    simp only [Kind.cmd.injEq] at hk
    obtain ⟨rfl, rfl⟩ := hk
    exact .fixed _ (by decide)
  case sendCipmux =>
    simp only [moves, hs, List.mem_cons, List.not_mem_nil, or_false] at hm
    subst hm
    simp only [Kind.cmd.injEq] at hk
    obtain ⟨rfl, rfl⟩ := hk
    exact .fixed _ (by decide)
  case sendCipsprt =>
    simp only [moves, hs, List.mem_cons, List.not_mem_nil, or_false] at hm
    subst hm
    simp at hk
  case sendCstt =>
    simp only [moves, hs, List.mem_cons, List.not_mem_nil, or_false] at hm
    subst hm
    simp only [Kind.cmd.injEq] at hk
    obtain ⟨rfl, rfl⟩ := hk
    exact .context
  case sendCiicr =>
    simp only [moves, hs, List.mem_cons, List.not_mem_nil, or_false] at hm
    subst hm
    simp only [Kind.cmd.injEq] at hk
    obtain ⟨rfl, rfl⟩ := hk
    exact .fixed _ (by decide)
  case sendCifsr =>
    simp only [moves, hs, List.mem_cons, List.not_mem_nil, or_false] at hm
    rcases hm with rfl | rfl
    · simp only [Kind.cmd.injEq] at hk
      obtain ⟨rfl, rfl⟩ := hk
      exact .fixed _ (by decide)
    · simp at hk
  case sendDnsQuery =>
    simp only [moves, hs, List.mem_cons, List.not_mem_nil, or_false] at hm
    rcases hm with rfl | rfl
    · simp only [Kind.cmd.injEq] at hk
      obtain ⟨rfl, rfl⟩ := hk
      exact .dns
    · simp at hk
  case sendCipstart =>
    simp only [moves, hs, List.mem_cons, List.not_mem_nil, or_false] at hm
    subst hm
    simp only [Kind.cmd.injEq] at hk
    obtain ⟨rfl, rfl⟩ := hk
    split
    · rename_i hu; exact .openUdp _ hu (decimal_dec5 hp)
    · rename_i hu; exact .openTcp _ hu (decimal_dec5 hp)
  case finalizeConnect =>
    simp only [moves, hs, List.mem_cons, List.not_mem_nil, or_false] at hm
    subst hm
    simp at hk
  case connected =>
    simp only [moves, hs, List.mem_cons, List.not_mem_nil, or_false] at hm
    rcases hm with rfl | rfl | rfl | rfl | rfl
    · simp only [Kind.cmd.injEq] at hk
      obtain ⟨rfl, rfl⟩ := hk
      exact .send _ (allDigits_dec5 _)
    · simp at hk
    · simp at hk
    · simp at hk
    · simp at hk
  case sendData =>
    simp only [moves, hs, List.mem_cons, List.not_mem_nil, or_false] at hm
    subst hm
    simp at hk
  case sendCiprxget4 =>
    simp only [moves, hs, List.mem_cons, List.not_mem_nil, or_false] at hm
    subst hm
    simp only [Kind.cmd.injEq] at hk
    obtain ⟨rfl, rfl⟩ := hk
    exact .fixed _ (by decide)
  case sendCiprxget2 =>
    simp only [moves, hs, List.mem_cons, List.not_mem_nil, or_false] at hm
    rcases hm with rfl | rfl | rfl | rfl | rfl
    · simp only [Kind.cmd.injEq] at hk
      obtain ⟨rfl, rfl⟩ := hk
      exact .request _ (allDigits_dec _)
    · simp at hk
    · simp at hk
    · simp at hk
    · simp at hk
  case waitReceive =>
    simp only [moves, hs, List.mem_cons, List.not_mem_nil, or_false] at hm
    subst hm
    simp at hk
  case receiving =>
    simp only [moves, hs, List.mem_cons, List.not_mem_nil, or_false] at hm
    rcases hm with rfl | rfl | rfl | rfl
    · simp at hk
    · simp at hk
    · simp at hk
    · simp at hk
  case ipUnconnected =>
    simp only [moves, hs, List.mem_cons, List.not_mem_nil, or_false] at hm
    rcases hm with rfl | rfl | rfl
    · simp at hk
    · simp at hk
    · simp at hk
  case sendCipclose =>
    simp only [moves, hs, List.mem_cons, List.not_mem_nil, or_false] at hm
    rcases hm with rfl | rfl
    · simp only [Kind.cmd.injEq] at hk
      obtain ⟨rfl, rfl⟩ := hk
      exact .fixed _ (by decide)
    · simp at hk
  case sendCipshut =>
    simp only [moves, hs, List.mem_cons, List.not_mem_nil, or_false] at hm
    subst hm
    simp only [Kind.cmd.injEq] at hk
    obtain ⟨rfl, rfl⟩ := hk
    exact .fixed _ (by decide)
  case finalizeDisconnect =>
    simp only [moves, hs, List.mem_cons, List.not_mem_nil, or_false] at hm
    subst hm
    simp at hk
  case serialError =>
    simp only [moves, hs, List.mem_cons, List.not_mem_nil, or_false] at hm
    subst hm
    simp at hk

theorem dns_apn (d : D) : d.parseDnsReply.1.ext.apn = d.ext.apn := by
  unfold SimDev.parseDnsReply
  dsimp only
  (repeat' split) <;> rfl

theorem id_apn (d : D) : d.parseIDReply.1.ext.apn = d.ext.apn := by
  have hg : ∀ s, (SimDev.parseIDReply.go d s).1.ext.apn = d.ext.apn := by
    intro s
    unfold SimDev.parseIDReply.go
    (try dsimp only)
    (repeat' split) <;> rfl
  unfold SimDev.parseIDReply
  (try dsimp only)
  (repeat' split) <;> first | rfl | exact hg _

theorem set_parseLine (p : Platform) (d : D) : Set (parseLine p d).1 = Set d := by
  have hw : Set (parseWait d) = Set d := by
    unfold parseWait
    (repeat' split) <;> rfl
  have hc : ∀ e : D, Set (checkState e) = Set e := by
    intro e; unfold checkState; (try dsimp only); (repeat' split) <;> simp [Set]
  have hp : ∀ e : D, Set (parseReply p e) = Set e := by
    intro e
    unfold parseReply
    split <;> (try unfold parseMac) <;> (try dsimp only) <;> (repeat' split) <;> simp [Set, dns_apn, id_apn]
  unfold parseLine
  split
  · rfl
  · exact (hc _).trans ((hp _).trans hw)

theorem set_fillLineBuffer (d : D) : Set (SimDev.fillLineBuffer d).1 = Set d := by
  simp [Set, SimDev.fillLineBuffer]

theorem set_flushIfDisconnecting (d : D) : Set (flushIfDisconnecting d) = Set d := by
  unfold flushIfDisconnecting
  split <;> rfl

theorem set_handleReset (d : D) : Set (handleReset d) = Set d := by
  unfold handleReset SimDev.connect ipConnect
  dsimp only
  (repeat' split) <;> rfl

theorem act_ip (d : D) : (act d).ext.ip = d.ext.ip := by
  unfold act
  split <;> (try unfold actConnected) <;> (try unfold actCiprxget2) <;> (try unfold actReceiving) <;>
    (try unfold actCstt) <;> (try unfold actCipstart) <;> (try unfold handleConnect) <;>
    (try dsimp only) <;> (repeat' split) <;> simp

theorem proceed_ip (d : D) : (proceed d).ext.ip = d.ext.ip := by
  unfold proceed
  split
  · rfl
  · split
    · rfl
    · show _ = d.askSpace.ext.ip
      generalize d.askSpace = d
      unfold sendNext
      split
      · simp
      · have h : (SimDev.sendIDRequest d iccidCommand).1.ext.ip = d.ext.ip := by
          unfold SimDev.sendIDRequest
          (try dsimp only)
          (repeat' split) <;> simp
        dsimp only
        split
        · exact h
        · exact (act_ip _).trans h

theorem lang_ident {d e : D} (h : e.host = d.host ∧ e.port = d.port ∧ e.typ = d.typ ∧ e.ext.apn = d.ext.apn ∧
    e.ext.ip = d.ext.ip) : lang e = lang d := by
  obtain ⟨h1, h2, h3, h4, h5⟩ := h
  unfold lang
  rw [h1, h2, h3, h4, h5]

theorem proceed_speaks {d : D} (hp : d.port < 65536) : Speaks (lang d) d (proceed d) := by
  unfold proceed
  split
  · exact .same rfl
  · rename_i hw
    split
    · exact .same rfl
    · have hr : d.askSpace.rep = .okReply := by
        show d.rep = .okReply
        cases hx : d.rep <;> simp [hx] at hw <;> rfl
      show Speaks (lang d.askSpace) d.askSpace _
      have hp' : d.askSpace.port < 65536 := hp
      clear hw hp
      generalize d.askSpace = d at *
      unfold sendNext
      split
      · refine .says ((says_sendCommand d b!"AT+CSQ").set rfl) ?_
        intro w t e
        simp only [Kind.cmd.injEq] at e
        obtain ⟨_, rfl⟩ := e
        exact .fixed _ (by decide)
      · dsimp only
        by_cases hq : (SimDev.sendIDRequest d iccidCommand).2 = true
        · rw [if_pos hq]
          obtain ⟨w, hm, g1, g2, ht⟩ := SimDev.sendIDRequest_true hq
          refine ⟨[.cmd w g1, .arg lineEnd g2], (by simpa using ht), ?_⟩
          simp only [texts, more, List.append_nil, List.mem_singleton]
          rintro s rfl
          refine .fixed _ ?_
          simp only [SimDev.idCommands, iccidCommand, List.mem_cons, List.not_mem_nil, or_false] at hm
          rcases hm with rfl | rfl | rfl | rfl | rfl <;> decide
        · rw [if_neg hq]
          have h0 : (SimDev.sendIDRequest d iccidCommand).1.ext.ip = d.ext.ip ∧
              (SimDev.sendIDRequest d iccidCommand).1.ext.apn = d.ext.apn := by
            unfold SimDev.sendIDRequest
            (try dsimp only)
            (repeat' split) <;> simp
          have e : lang d = lang (SimDev.sendIDRequest d iccidCommand).1 :=
            (lang_ident ⟨by simp, by simp, by simp, h0.2, h0.1⟩).symm
          rw [e]
          refine Speaks.after (b := (SimDev.sendIDRequest d iccidCommand).1) (new := [])
            (.moves (act_moves (by simpa using hr)) (lang_moves (by simpa using hp'))) ?_ (by simp)
          rw [(SimDev.sendIDRequest_false (by simpa using hq)).1]; simp

theorem lang_set {d e : D} (h : Set e = Set d) (ip : Mem) (hi : e.ext.ip = ip) :
    e.port = d.port ∧ lang e = LangSim800 (d.host.getD []) (cstr ip.cells) (d.ext.apn.getD []) d.port d.typ := by
  unfold Set at h
  simp only [Prod.mk.injEq] at h
  unfold lang
  obtain ⟨h1, h2, h3, h4⟩ := h
  exact ⟨h2, by rw [h1, h2, h3, h4, hi]⟩

theorem work_speaks (p : Platform) {d : D} (hp : d.port < 65536) : Speaks (LangSim800 (d.host.getD []) (cstr (work p d).ext.ip.cells) (d.ext.apn.getD []) d.port d.typ) d (work p d) := by
  have hf := set_fillLineBuffer d
  unfold work
  dsimp only
  refine speaks_fill (stop := SimDev.lineStop d.rep) ?_
  show Speaks _ (SimDev.fillLineBuffer d).1 _
  split
  · have h1 := (set_parseLine p (SimDev.fillLineBuffer d).1).trans hf
    have ht := parseLine_trace p (SimDev.fillLineBuffer d).1
    split
    · exact .same ht
    · obtain ⟨h2, h3⟩ := lang_set h1 _ (proceed_ip _).symm
      rw [← h3]
      exact (proceed_speaks (by rw [h2]; exact hp)).after (new := []) (by rw [ht]; simp) (by simp)
  · have h1 := (set_flushIfDisconnecting (SimDev.fillLineBuffer d).1).trans hf
    obtain ⟨h2, h3⟩ := lang_set h1 _ (proceed_ip _).symm
    rw [← h3]
    have hs := proceed_speaks (d := flushIfDisconnecting (SimDev.fillLineBuffer d).1) (by rw [h2]; exact hp)
    revert hs
    generalize proceed (flushIfDisconnecting (SimDev.fillLineBuffer d).1) = e
    generalize lang (flushIfDisconnecting (SimDev.fillLineBuffer d).1) = L
    unfold flushIfDisconnecting
    split
    · intro hs; exact hs.after (new := [.drop _]) rfl (by simp [sent, isArg])
    · exact id

theorem run_speaks (p : Platform) {d : D} (ok : Bool) (hp : d.port < 65536) :
    Speaks (LangSim800 (d.host.getD []) (cstr (run p d ok).ext.ip.cells) (d.ext.apn.getD []) d.port d.typ) d (run p d ok) := by
  unfold run
  split
  · unfold tryOpen; split <;> exact .same rfl
  · split
    · exact .same rfl
    · split
      · obtain ⟨more, ht, hm, _⟩ := handleReset_ord d
        obtain ⟨h1, h2⟩ := lang_set (set_handleReset d) _ rfl
        have hs := work_speaks p (d := handleReset d) (by rw [h1]; exact hp)
        have e := set_handleReset d
        simp only [Set, Prod.mk.injEq] at e
        obtain ⟨e1, e2, e3, e4⟩ := e
        rw [e1, e2, e3, e4] at hs
        refine hs.after ht ?_
        intro x hx
        rcases hm x hx with rfl | rfl <;> simp [sent, isArg]
      · exact work_speaks p hp

end Sim800

namespace Espressif

/-- The settings of the application. -/
def Set (d : D) := (d.host, d.port, d.typ, d.ext.ssid, d.ext.passwd)

/-- The language of the driver with its present settings. -/
def lang (d : D) : List Byte → Prop := LangEspressif (d.host.getD []) d.ext.ssid.val d.ext.passwd.val d.port d.typ

theorem lang_moves {d : D} (hp : d.port < 65536) : ∀ m ∈ moves d, ∀ w t, m.1 = .cmd w t → lang d t := by
  intro m hm w t hk
  unfold lang
  cases hs : d.snd
  case notConnected =>
    simp only [moves, hs, List.mem_cons, List.not_mem_nil, or_false] at hm
    rcases hm with rfl | rfl
    · simp at hk
    · simp at hk
  case connecting =>
    simp only [moves, hs, List.mem_cons, List.not_mem_nil, or_false] at hm
    subst hm
    simp only [Kind.cmd.injEq] at hk
    obtain ⟨rfl, rfl⟩ := hk
    exact .fixed _ (by decide)
  case sendCwmode =>
    simp only [moves, hs, List.mem_cons, List.not_mem_nil, or_false] at hm
    subst hm
    simp only [Kind.cmd.injEq] at hk
    obtain ⟨rfl, rfl⟩ := hk
    exact .fixed _ (by decide)
  case sendCwjap =>
    simp only [moves, hs, List.mem_cons, List.not_mem_nil, or_false] at hm
    subst hm
    simp only [Kind.cmd.injEq] at hk
    obtain ⟨rfl, rfl⟩ := hk
    exact .join
  case sendCipmux =>
    simp only [moves, hs, List.mem_cons, List.not_mem_nil, or_false] at hm
    subst hm
    simp only [Kind.cmd.injEq] at hk
    obtain ⟨rfl, rfl⟩ := hk
    exact .fixed _ (by decide)
  case sendCiprecvmode =>
    simp only [moves, hs, List.mem_cons, List.not_mem_nil, or_false] at hm
    subst hm
    simp only [Kind.cmd.injEq] at hk
    obtain ⟨rfl, rfl⟩ := hk
    split
    · rename_i hu; exact .passive hu
    · rename_i hu; exact .active hu
  case sendCipmode =>
    simp only [moves, hs, List.mem_cons, List.not_mem_nil, or_false] at hm
    subst hm
    simp only [Kind.cmd.injEq] at hk
    obtain ⟨rfl, rfl⟩ := hk
    exact .fixed _ (by decide)
  case sendCipstart =>
    simp only [moves, hs, List.mem_cons, List.not_mem_nil, or_false] at hm
    subst hm
    simp only [Kind.cmd.injEq] at hk
    obtain ⟨rfl, rfl⟩ := hk
    cases ht : d.typ
    · exact .openUdp _ rfl (decimal_dec5 hp)
    · exact .openTcp _ rfl (decimal_dec5 hp)
    · exact .openSsl _ rfl (decimal_dec5 hp)
  case finalizeConnect =>
    simp only [moves, hs, List.mem_cons, List.not_mem_nil, or_false] at hm
    subst hm
    simp at hk
  case connected =>
    simp only [moves, hs, List.mem_cons, List.not_mem_nil, or_false] at hm
    rcases hm with rfl | rfl | rfl | rfl | rfl | rfl
    · simp only [Kind.cmd.injEq] at hk
      obtain ⟨rfl, rfl⟩ := hk
      exact .send _ (allDigits_dec5 _)
    · simp at hk
    · simp at hk
    · simp at hk
    · simp at hk
    · simp at hk
  case sendDataState =>
    simp only [moves, hs, List.mem_cons, List.not_mem_nil, or_false] at hm
    subst hm
    simp at hk
  case sendCiprecvdata =>
    simp only [moves, hs, List.mem_cons, List.not_mem_nil, or_false] at hm
    rcases hm with rfl | rfl | rfl | rfl
    · simp only [Kind.cmd.injEq] at hk
      obtain ⟨rfl, rfl⟩ := hk
      exact .request _ (allDigits_dec _)
    · simp at hk
    · simp at hk
    · simp at hk
  case waitReceive =>
    simp only [moves, hs, List.mem_cons, List.not_mem_nil, or_false] at hm
    subst hm
    simp at hk
  case receiving =>
    simp only [moves, hs, List.mem_cons, List.not_mem_nil, or_false] at hm
    rcases hm with rfl | rfl | rfl | rfl
    · simp at hk
    · simp at hk
    · simp at hk
    · simp at hk
  case sendCipclose =>
    simp only [moves, hs, List.mem_cons, List.not_mem_nil, or_false] at hm
    rcases hm with rfl | rfl
    · simp only [Kind.cmd.injEq] at hk
      obtain ⟨rfl, rfl⟩ := hk
      exact .fixed _ (by decide)
    · simp at hk
  case sendCwqap =>
    simp only [moves, hs, List.mem_cons, List.not_mem_nil, or_false] at hm
    subst hm
    simp only [Kind.cmd.injEq] at hk
    obtain ⟨rfl, rfl⟩ := hk
    exact .fixed _ (by decide)
  case finalizeDisconnect =>
    simp only [moves, hs, List.mem_cons, List.not_mem_nil, or_false] at hm
    subst hm
    simp at hk
  case serialError =>
    simp only [moves, hs, List.mem_cons, List.not_mem_nil, or_false] at hm
    subst hm
    simp at hk

theorem set_parseLine (p : Platform) (d : D) : Set (parseLine p d).1 = Set d := by
  have hw : Set (parseWait (parseSendFail d)) = Set d := by
    unfold parseWait parseSendFail
    (repeat' split) <;> rfl
  have hc : ∀ e : D, Set (checkState p e) = Set e := by
    intro e; unfold checkState; (try dsimp only); (repeat' split) <;> simp [Set]
  have hp : ∀ e : D, Set (parseReply p e) = Set e := by
    intro e
    unfold parseReply
    split <;> (try unfold parseMac) <;> (try dsimp only) <;> (repeat' split) <;> simp [Set]
  unfold parseLine
  split
  · rfl
  · exact (hc _).trans ((hp _).trans hw)

theorem set_fillLineBuffer (d : D) : Set (fillLineBuffer d).1 = Set d := by
  simp [Set, fillLineBuffer]

theorem set_flushIfDisconnecting (d : D) : Set (flushIfDisconnecting d) = Set d := by
  unfold flushIfDisconnecting
  split <;> rfl

theorem set_handleReset (d : D) : Set (handleReset d) = Set d := by
  unfold handleReset 
  dsimp only
  (repeat' split) <;> rfl

theorem proceed_speaks (p : Platform) {d : D} (hp : d.port < 65536) : Speaks (lang d) d (proceed p d) := by
  unfold proceed
  split
  · exact .same rfl
  · rename_i hw
    split
    · exact .same rfl
    · have hr : d.askSpace.rep = .okReply := by
        show d.rep = .okReply
        cases hx : d.rep <;> simp [hx] at hw <;> rfl
      show Speaks (lang d.askSpace) d.askSpace _
      have hp' : d.askSpace.port < 65536 := hp
      clear hw hp
      generalize d.askSpace = d at *
      unfold sendNext
      split
      · refine .says ((says_sendCommand d b!"AT+CWJAP?").set rfl) ?_
        intro w t e
        simp only [Kind.cmd.injEq] at e
        obtain ⟨_, rfl⟩ := e
        exact .fixed _ (by decide)
      · split
        · refine .says ((says_sendCommand d b!"AT+CIPSTAMAC?").set rfl) ?_
          intro w t e
          simp only [Kind.cmd.injEq] at e
          obtain ⟨_, rfl⟩ := e
          exact .fixed _ (by decide)
        · exact .moves (act_moves hr) (lang_moves hp')

theorem lang_set {d e : D} (h : Set e = Set d) :
    e.port = d.port ∧ lang e = LangEspressif (d.host.getD []) d.ext.ssid.val d.ext.passwd.val d.port d.typ := by
  unfold Set at h
  simp only [Prod.mk.injEq] at h
  unfold lang
  obtain ⟨h1, h2, h3, h4, h5⟩ := h
  exact ⟨h2, by rw [h1, h2, h3, h4, h5]⟩

theorem work_speaks (p : Platform) {d : D} (hp : d.port < 65536) : Speaks (LangEspressif (d.host.getD []) d.ext.ssid.val d.ext.passwd.val d.port d.typ) d (work p d) := by
  have hf := set_fillLineBuffer d
  unfold work
  dsimp only
  refine speaks_fill (stop := lineStop d.typ d.rep) ?_
  show Speaks _ (fillLineBuffer d).1 _
  split
  · have h1 := (set_parseLine p (fillLineBuffer d).1).trans hf
    have ht := parseLine_trace p (fillLineBuffer d).1
    split
    · exact .same ht
    · obtain ⟨h2, h3⟩ := lang_set h1
      rw [← h3]
      exact (proceed_speaks p (by rw [h2]; exact hp)).after (new := []) (by rw [ht]; simp) (by simp)
  · have h1 := (set_flushIfDisconnecting (fillLineBuffer d).1).trans hf
    obtain ⟨h2, h3⟩ := lang_set h1
    rw [← h3]
    have hs := proceed_speaks p (d := flushIfDisconnecting (fillLineBuffer d).1) (by rw [h2]; exact hp)
    revert hs
    generalize proceed p (flushIfDisconnecting (fillLineBuffer d).1) = e
    generalize lang (flushIfDisconnecting (fillLineBuffer d).1) = L
    unfold flushIfDisconnecting
    split
    · intro hs; exact hs.after (new := [.drop _]) rfl (by simp [sent, isArg])
    · exact id

theorem run_speaks (p : Platform) {d : D} (ok : Bool) (hp : d.port < 65536) :
    Speaks (LangEspressif (d.host.getD []) d.ext.ssid.val d.ext.passwd.val d.port d.typ) d (run p d ok) := by
  unfold run
  split
  · unfold tryOpen; split <;> exact .same rfl
  · split
    · refine ⟨[.flush, .cmd b!"AT+RST" _, .arg lineEnd _], (by simp [handleReset]; exact ⟨rfl, rfl⟩), ?_⟩
      simp only [texts, more, List.append_nil, List.mem_singleton]
      rintro s rfl
      exact .fixed _ (by decide)
    · exact work_speaks p hp

end Espressif

namespace CC1352P7

/-- The settings of the application. -/
def Set (d : D) := (d.host, d.port, d.typ)

/-- The language of the driver with its present settings. -/
def lang (d : D) : List Byte → Prop := LangCC1352P7 (d.host.getD []) d.port d.typ

theorem lang_moves {d : D} (hp : d.port < 65536) : ∀ m ∈ moves d, ∀ w t, m.1 = .cmd w t → lang d t := by
  intro m hm w t hk
  unfold lang
  cases hs : d.snd
  case notConnected =>
    simp only [moves, hs, List.mem_cons, List.not_mem_nil, or_false] at hm
    rcases hm with rfl | rfl
    · simp at hk
    · simp at hk
  case connecting =>
    simp only [moves, hs, List.mem_cons, List.not_mem_nil, or_false] at hm
    subst hm
    simp only [Kind.cmd.injEq] at hk
    obtain ⟨rfl, rfl⟩ := hk
    exact .fixed _ (by decide)
  case sendCipstart =>
    simp only [moves, hs, List.mem_cons, List.not_mem_nil, or_false] at hm
    subst hm
    simp only [Kind.cmd.injEq] at hk
    obtain ⟨rfl, rfl⟩ := hk
    split
    · rename_i hu; exact .openUdp _ hu (decimal_dec5 hp)
    · rename_i hu; exact .openTcp _ hu (decimal_dec5 hp)
  case finalizeConnect =>
    simp only [moves, hs, List.mem_cons, List.not_mem_nil, or_false] at hm
    subst hm
    simp at hk
  case connected =>
    simp only [moves, hs, List.mem_cons, List.not_mem_nil, or_false] at hm
    rcases hm with rfl | rfl | rfl | rfl | rfl
    · simp only [Kind.cmd.injEq] at hk
      obtain ⟨rfl, rfl⟩ := hk
      exact .send _ (allDigits_dec5 _)
    · simp at hk
    · simp at hk
    · simp at hk
    · simp at hk
  case sendDataState =>
    simp only [moves, hs, List.mem_cons, List.not_mem_nil, or_false] at hm
    subst hm
    simp at hk
  case sendCiprecvdata =>
    simp only [moves, hs, List.mem_cons, List.not_mem_nil, or_false] at hm
    rcases hm with rfl | rfl | rfl | rfl
    · simp only [Kind.cmd.injEq] at hk
      obtain ⟨rfl, rfl⟩ := hk
      exact .request _ (allDigits_dec _)
    · simp at hk
    · simp at hk
    · simp at hk
  case waitReceive =>
    simp only [moves, hs, List.mem_cons, List.not_mem_nil, or_false] at hm
    subst hm
    simp at hk
  case receiving =>
    simp only [moves, hs, List.mem_cons, List.not_mem_nil, or_false] at hm
    rcases hm with rfl | rfl | rfl | rfl
    · simp at hk
    · simp at hk
    · simp at hk
    · simp at hk
  case sendCipclose =>
    simp only [moves, hs, List.mem_cons, List.not_mem_nil, or_false] at hm
    subst hm
    simp only [Kind.cmd.injEq] at hk
    obtain ⟨rfl, rfl⟩ := hk
    exact .fixed _ (by decide)
  case finalizeDisconnect =>
    simp only [moves, hs, List.mem_cons, List.not_mem_nil, or_false] at hm
    subst hm
    simp at hk
  case serialError =>
    simp only [moves, hs, List.mem_cons, List.not_mem_nil, or_false] at hm
    subst hm
    simp at hk

theorem set_parseLine (p : Platform) (d : D) : Set (parseLine p d).1 = Set d := by
  have hw : Set (parseWait d) = Set d := by
    unfold parseWait
    (repeat' split) <;> rfl
  have hc : ∀ e : D, Set (checkState p e) = Set e := by
    intro e; unfold checkState; (try dsimp only); (repeat' split) <;> simp [Set]
  have hp : ∀ e : D, Set (parseReply p e) = Set e := by
    intro e
    unfold parseReply
    split <;> (try unfold parseMac) <;> (try dsimp only) <;> (repeat' split) <;> simp [Set]
  unfold parseLine
  split
  · rfl
  · exact (hc _).trans ((hp _).trans hw)

theorem set_fillLineBuffer (d : D) : Set (fillLineBuffer d).1 = Set d := by
  simp [Set, fillLineBuffer]

theorem set_flushIfDisconnecting (d : D) : Set (flushIfDisconnecting d) = Set d := by
  unfold flushIfDisconnecting
  split <;> rfl

theorem set_handleReset (d : D) : Set (handleReset d) = Set d := by
  unfold handleReset ipConnect
  dsimp only
  (repeat' split) <;> rfl

theorem proceed_speaks (p : Platform) {d : D} (hp : d.port < 65536) : Speaks (lang d) d (proceed p d) := by
  unfold proceed
  split
  · exact .same rfl
  · rename_i hw
    split
    · exact .same rfl
    · have hr : d.askSpace.rep = .okReply := by
        show d.rep = .okReply
        cases hx : d.rep <;> simp [hx] at hw <;> rfl
      show Speaks (lang d.askSpace) d.askSpace _
      have hp' : d.askSpace.port < 65536 := hp
      clear hw hp
      generalize d.askSpace = d at *
      unfold sendNext
      split
      · refine .says ((says_sendCommand d b!"AT+CSQ").set rfl) ?_
        intro w t e
        simp only [Kind.cmd.injEq] at e
        obtain ⟨_, rfl⟩ := e
        exact .fixed _ (by decide)
      · split
        · refine .says ((says_sendCommand d b!"AT+CIPSTAMAC").set rfl) ?_
          intro w t e
          simp only [Kind.cmd.injEq] at e
          obtain ⟨_, rfl⟩ := e
          exact .fixed _ (by decide)
        · exact .moves (act_moves hr) (lang_moves hp')

theorem lang_set {d e : D} (h : Set e = Set d) :
    e.port = d.port ∧ lang e = LangCC1352P7 (d.host.getD []) d.port d.typ := by
  unfold Set at h
  simp only [Prod.mk.injEq] at h
  unfold lang
  obtain ⟨h1, h2, h3⟩ := h
  exact ⟨h2, by rw [h1, h2, h3]⟩

theorem work_speaks (p : Platform) {d : D} (hp : d.port < 65536) : Speaks (LangCC1352P7 (d.host.getD []) d.port d.typ) d (work p d) := by
  have hf := set_fillLineBuffer d
  unfold work
  dsimp only
  refine speaks_fill (stop := lineStop d.rep) ?_
  show Speaks _ (fillLineBuffer d).1 _
  split
  · have h1 := (set_parseLine p (fillLineBuffer d).1).trans hf
    have ht := parseLine_trace p (fillLineBuffer d).1
    split
    · exact .same ht
    · obtain ⟨h2, h3⟩ := lang_set h1
      rw [← h3]
      exact (proceed_speaks p (by rw [h2]; exact hp)).after (new := []) (by rw [ht]; simp) (by simp)
  · have h1 := (set_flushIfDisconnecting (fillLineBuffer d).1).trans hf
    obtain ⟨h2, h3⟩ := lang_set h1
    rw [← h3]
    have hs := proceed_speaks p (d := flushIfDisconnecting (fillLineBuffer d).1) (by rw [h2]; exact hp)
    revert hs
    generalize proceed p (flushIfDisconnecting (fillLineBuffer d).1) = e
    generalize lang (flushIfDisconnecting (fillLineBuffer d).1) = L
    unfold flushIfDisconnecting
    split
    · intro hs; exact hs.after (new := [.drop _]) rfl (by simp [sent, isArg])
    · exact id

theorem run_speaks (p : Platform) {d : D} (ok : Bool) (hp : d.port < 65536) :
    Speaks (LangCC1352P7 (d.host.getD []) d.port d.typ) d (run p d ok) := by
  unfold run
  split
  · unfold tryOpen; split <;> exact .same rfl
  · split
    · obtain ⟨more, ht, hm, _⟩ := handleReset_ord d
      obtain ⟨h1, h2⟩ := lang_set (set_handleReset d)
      have hs := work_speaks p (d := handleReset d) (by rw [h1]; exact hp)
      have e := set_handleReset d
      simp only [Set, Prod.mk.injEq] at e
      obtain ⟨e1, e2, e3⟩ := e
      rw [e1, e2, e3] at hs
      refine hs.after ht ?_
      intro x hx
      rcases hm x hx with rfl | rfl <;> simp [sent, isArg]
    · exact work_speaks p hp

end CC1352P7

end Verif
