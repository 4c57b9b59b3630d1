import Verif.Lemmas.RestSim7x00
import Verif.Lemmas.RestSim800
import Verif.Lemmas.RestEspressif
import Verif.Lemmas.RestCC1352P7
import Verif.Spec.Sessions

/-!
# C31: no connection without `connect()`

`d1` is any state in which no call of `connect()` is waiting to be served: no request is pending, and
if the driver is idle it has not just taken one up (this includes the state after construction and
after `resetStates()`). From there on, after the driver was seen idle (`d2`), it only sends status
requests and resets until `connect()` is called again.
-/

namespace Verif.Props.Rest

open Verif Dev

/-- All commands among the events are of the list; no payload is sent or received. -/
def OnlyStatus (list : List (List Byte)) (new : List Ev) : Prop :=
  ∀ e ∈ new, (∀ w g, e = .cmd w g → w ∈ list) ∧ (∀ b, e ≠ .pay b) ∧ (∀ b, e ≠ .data b)

theorem onlyStatus_sim7x00 {new : List Ev} (h : new.all Sim7x00.restOk = true) :
    OnlyStatus Sim7x00.other new := by
  intro e he
  have := List.all_eq_true.mp h e he
  refine ⟨?_, ?_, ?_⟩
  · rintro w g rfl; simpa [Sim7x00.restOk] using this
  · rintro b rfl; simp [Sim7x00.restOk] at this
  · rintro b rfl; simp [Sim7x00.restOk] at this

/-- Sim7x00. -/
theorem C31_sim7x00 (p : Platform) (rx tx : List Byte) (sched : List (List Hw))
    (rmem wmem : List Byte) (t : ConnType) (line : List Byte) (ip id : List Byte) (hl : line.length = 61)
    (ops1 ops2 ops3 : List Op) :
    let d1 := exec (Sim7x00.step p) (Sim7x00.init (Ser.init rx tx sched) rmem wmem t line ip id) ops1
    let d2 := exec (Sim7x00.step p) d1 ops2
    let d3 := exec (Sim7x00.step p) d2 ops3
    d1.connectPending = false → (d1.isIdle = true → d1.snd ≠ .connecting) → d2.isIdle = true →
      ∃ new2 new3, d2.trace = d1.trace ++ new2 ∧ d3.trace = d2.trace ++ new3 ∧
        (.apiConnect ∉ new2 ++ new3 →
          OnlyStatus
            [b!"AT+CSQ", b!"AT+CGMI", b!"AT+CGMM", b!"AT+CGSN", b!"AT+CIMI", b!"AT+CICCID", b!"AT+CRESET"]
            new3) := by
  intro d1 d2 d3 hc hs hi
  have v0 := Sim7x00.inv_init rx tx sched rmem wmem t ip id hl
  have i1 : Sim7x00.Inv d1 := Sim7x00.inv_exec p v0 ops1
  have i2 : Sim7x00.Inv d2 := Sim7x00.inv_exec p i1 ops2
  have h1 : Sim7x00.Idle d1 := Sim7x00.exec_stages (Sim7x00.idle_sections p) Sim7x00.idle_calls
    Sim7x00.idle_own v0 ⟨fun _ => Or.inl rfl, fun _ => Or.inl rfl, fun _ => rfl⟩ ops1
  have h2 : Sim7x00.NoAskSince d1.trace d2 := Sim7x00.exec_stages (Sim7x00.noAsk_sections p d1.trace)
    (Sim7x00.noAsk_calls _) (Sim7x00.noAsk_own _) i1
    (.start (h1.noAsk hc fun x => hs (by simp [Dev.isIdle, x]))) ops2
  obtain ⟨new2, e2, k2⟩ := h2
  have hi' : d2.cs = .notConnected := by simpa [Dev.isIdle] using hi
  by_cases hb : Ev.apiConnect ∈ new2
  · obtain ⟨new3, e3⟩ := Sim7x00.exec_grows p d2 ops3
    exact ⟨new2, new3, e2, e3, fun h => absurd (List.mem_append_left _ hb) h⟩
  · have hk := (k2 (by simp; intro e he hx; exact hb (hx ▸ he))).1.calm hi'
    have h3 : Sim7x00.RestSince d2.trace d3 := Sim7x00.exec_stages (Sim7x00.rest_sections p d2.trace)
      (Sim7x00.rest_calls _) (Sim7x00.rest_own _) i2 (.start hk.rest) ops3
    obtain ⟨new3, e3, k3⟩ := h3
    refine ⟨new2, new3, e2, e3, fun h => onlyStatus_sim7x00 (k3 ?_).2⟩
    simp; intro e he hx; exact h (List.mem_append_right _ (hx ▸ he))

theorem onlyStatus_espressif {new : List Ev} (h : new.all Espressif.restOk = true) :
    OnlyStatus Espressif.other new := by
  intro e he
  have := List.all_eq_true.mp h e he
  refine ⟨?_, ?_, ?_⟩
  · rintro w g rfl; simpa [Espressif.restOk] using this
  · rintro b rfl; simp [Espressif.restOk] at this
  · rintro b rfl; simp [Espressif.restOk] at this

/-- Espressif. -/
theorem C31_espressif (p : Platform) (rx tx : List Byte) (sched : List (List Hw))
    (rmem wmem : List Byte) (t : ConnType) (line : List Byte) (mac : List Byte) (ssid passwd : CPtr) (hl : line.length = 61)
    (ops1 ops2 ops3 : List Op) :
    let d1 := exec (Espressif.step p) (Espressif.init (Ser.init rx tx sched) rmem wmem t line mac ssid passwd) ops1
    let d2 := exec (Espressif.step p) d1 ops2
    let d3 := exec (Espressif.step p) d2 ops3
    d1.connectPending = false → (d1.isIdle = true → d1.snd ≠ .connecting) → d2.isIdle = true →
      ∃ new2 new3, d2.trace = d1.trace ++ new2 ∧ d3.trace = d2.trace ++ new3 ∧
        (.apiConnect ∉ new2 ++ new3 →
          OnlyStatus
            [b!"AT+CWJAP?", b!"AT+CIPSTAMAC?", b!"AT+RST"]
            new3) := by
  intro d1 d2 d3 hc hs hi
  have v0 := Espressif.inv_init rx tx sched rmem wmem t mac ssid passwd hl
  have i1 : Espressif.Inv d1 := Espressif.inv_exec p v0 ops1
  have i2 : Espressif.Inv d2 := Espressif.inv_exec p i1 ops2
  have h1 : Espressif.Idle d1 := Espressif.exec_stages (Espressif.idle_sections p) Espressif.idle_calls
    Espressif.idle_own v0 ⟨fun _ => Or.inl rfl, fun _ => Or.inl rfl, fun _ => rfl⟩ ops1
  have h2 : Espressif.NoAskSince d1.trace d2 := Espressif.exec_stages (Espressif.noAsk_sections p d1.trace)
    (Espressif.noAsk_calls _) (Espressif.noAsk_own _) i1
    (.start (h1.noAsk hc fun x => hs (by simp [Dev.isIdle, x]))) ops2
  obtain ⟨new2, e2, k2⟩ := h2
  have hi' : d2.cs = .notConnected := by simpa [Dev.isIdle] using hi
  by_cases hb : Ev.apiConnect ∈ new2
  · obtain ⟨new3, e3⟩ := Espressif.exec_grows p d2 ops3
    exact ⟨new2, new3, e2, e3, fun h => absurd (List.mem_append_left _ hb) h⟩
  · have hk := (k2 (by simp; intro e he hx; exact hb (hx ▸ he))).1.calm hi'
    have h3 : Espressif.RestSince d2.trace d3 := Espressif.exec_stages (Espressif.rest_sections p d2.trace)
      (Espressif.rest_calls _) (Espressif.rest_own _) i2 (.start hk.rest) ops3
    obtain ⟨new3, e3, k3⟩ := h3
    refine ⟨new2, new3, e2, e3, fun h => onlyStatus_espressif (k3 ?_).2⟩
    simp; intro e he hx; exact h (List.mem_append_right _ (hx ▸ he))

theorem onlyStatus_sim800 {new : List Ev} (h : new.all Sim800.restOk = true) :
    OnlyStatus Sim800.other new := by
  intro e he
  have := List.all_eq_true.mp h e he
  refine ⟨?_, ?_, ?_⟩
  · rintro w g rfl; simpa [Sim800.restOk] using this
  · rintro b rfl; simp [Sim800.restOk] at this
  · rintro b rfl; simp [Sim800.restOk] at this

/-- Sim800: as long as the modem reports no error. -/
theorem C31_sim800 (p : Platform) (rx tx : List Byte) (sched : List (List Hw))
    (rmem wmem : List Byte) (t : ConnType) (line : List Byte) (ip id : List Byte) (hl : line.length = 61)
    (ops1 ops2 ops3 : List Op) :
    let d1 := exec (Sim800.step p) (Sim800.init (Ser.init rx tx sched) rmem wmem t line ip id) ops1
    let d2 := exec (Sim800.step p) d1 ops2
    let d3 := exec (Sim800.step p) d2 ops3
    d1.connectPending = false → d1.resetPending = false → (d1.isIdle = true → d1.snd ≠ .connecting) → d2.isIdle = true →
      ∃ new2 new3, d2.trace = d1.trace ++ new2 ∧ d3.trace = d2.trace ++ new3 ∧
        ((.apiConnect ∉ new2 ++ new3 ∧ ∀ l, .line l ∈ new2 ++ new3 → ∀ w ∈ [b!"+PDP: DEACT", b!"+CME ERROR", b!"ERROR", b!"+CDNSGIP: 0", b!"0, CONNECT FAIL"], ¬ w <+: l) →
          OnlyStatus
            [b!"AT+CSQ", b!"AT+CGMI", b!"AT+CGMM", b!"AT+CGSN", b!"AT+CIMI", b!"AT+CCID"]
            new3) := by
  intro d1 d2 d3 hc hr hs hi
  have v0 := Sim800.inv_init rx tx sched rmem wmem t ip id hl
  have i1 : Sim800.Inv d1 := Sim800.inv_exec p v0 ops1
  have i2 : Sim800.Inv d2 := Sim800.inv_exec p i1 ops2
  have h1 : Sim800.Idle d1 := Sim800.exec_stages (Sim800.idle_sections p) Sim800.idle_calls
    Sim800.idle_own v0 ⟨fun _ => Or.inl rfl, fun _ => Or.inl rfl, fun _ => rfl⟩ ops1
  have h2 : Sim800.NoAskSince d1.trace d2 := Sim800.exec_stages (Sim800.noAsk_sections p d1.trace)
    (Sim800.noAsk_calls _) (Sim800.noAsk_own _) i1
    (.start (h1.noAsk hc hr fun x => hs (by simp [Dev.isIdle, x]))) ops2
  obtain ⟨new2, e2, k2⟩ := h2
  have hi' : d2.cs = .notConnected := by simpa [Dev.isIdle] using hi
  have good : ∀ new : List Ev, .apiConnect ∉ new →
      (∀ l, .line l ∈ new → ∀ w ∈ Sim800.errorLines, ¬ w <+: l) → new.any Sim800.restBad = false := by
    intro new g1 g2
    rw [List.any_eq_false]
    intro e he
    cases e <;> simp only [Sim800.restBad] <;> try simp
    · rename_i l
      intro w hw hp
      exact g2 l he w hw hp
    · exact g1 he
  by_cases hb : new2.any Sim800.restBad = false
  · have hk := (k2 hb).1.calm hi'
    have h3 : Sim800.RestSince d2.trace d3 := Sim800.exec_stages (Sim800.rest_sections p d2.trace)
      (Sim800.rest_calls _) (Sim800.rest_own _) i2 (.start hk) ops3
    obtain ⟨new3, e3, k3⟩ := h3
    refine ⟨new2, new3, e2, e3, fun h => onlyStatus_sim800 (k3 ?_).2⟩
    exact good _ (fun x => h.1 (List.mem_append_right _ x))
      fun l x => h.2 l (List.mem_append_right _ x)
  · obtain ⟨new3, e3⟩ := Sim800.exec_grows p d2 ops3
    refine ⟨new2, new3, e2, e3, fun h => absurd (good _ ?_ ?_) hb⟩
    · exact fun x => h.1 (List.mem_append_left _ x)
    · exact fun l x => h.2 l (List.mem_append_left _ x)

theorem onlyStatus_cc1352p7 {new : List Ev} (h : new.all CC1352P7.restOk = true) :
    OnlyStatus CC1352P7.other new := by
  intro e he
  have := List.all_eq_true.mp h e he
  refine ⟨?_, ?_, ?_⟩
  · rintro w g rfl; simpa [CC1352P7.restOk] using this
  · rintro b rfl; simp [CC1352P7.restOk] at this
  · rintro b rfl; simp [CC1352P7.restOk] at this

/-- CC1352P7: as long as the modem reports no error. -/
theorem C31_cc1352p7 (p : Platform) (rx tx : List Byte) (sched : List (List Hw))
    (rmem wmem : List Byte) (t : ConnType) (line : List Byte) (mac : List Byte) (hl : line.length = 61)
    (ops1 ops2 ops3 : List Op) :
    let d1 := exec (CC1352P7.step p) (CC1352P7.init (Ser.init rx tx sched) rmem wmem t line mac) ops1
    let d2 := exec (CC1352P7.step p) d1 ops2
    let d3 := exec (CC1352P7.step p) d2 ops3
    d1.connectPending = false → d1.resetPending = false → (d1.isIdle = true → d1.snd ≠ .connecting) → d2.isIdle = true →
      ∃ new2 new3, d2.trace = d1.trace ++ new2 ∧ d3.trace = d2.trace ++ new3 ∧
        ((.apiConnect ∉ new2 ++ new3 ∧ ∀ l, .line l ∈ new2 ++ new3 → ∀ w ∈ [b!"ERROR", b!"SEND FAIL"], ¬ w <+: l) →
          OnlyStatus
            [b!"AT+CSQ", b!"AT+CIPSTAMAC"]
            new3) := by
  intro d1 d2 d3 hc hr hs hi
  have v0 := CC1352P7.inv_init rx tx sched rmem wmem t mac hl
  have i1 : CC1352P7.Inv d1 := CC1352P7.inv_exec p v0 ops1
  have i2 : CC1352P7.Inv d2 := CC1352P7.inv_exec p i1 ops2
  have h1 : CC1352P7.Idle d1 := CC1352P7.exec_stages (CC1352P7.idle_sections p) CC1352P7.idle_calls
    CC1352P7.idle_own v0 ⟨fun _ => Or.inl rfl, fun _ => Or.inl rfl, fun _ => rfl⟩ ops1
  have h2 : CC1352P7.NoAskSince d1.trace d2 := CC1352P7.exec_stages (CC1352P7.noAsk_sections p d1.trace)
    (CC1352P7.noAsk_calls _) (CC1352P7.noAsk_own _) i1
    (.start (h1.noAsk hc hr fun x => hs (by simp [Dev.isIdle, x]))) ops2
  obtain ⟨new2, e2, k2⟩ := h2
  have hi' : d2.cs = .notConnected := by simpa [Dev.isIdle] using hi
  have good : ∀ new : List Ev, .apiConnect ∉ new →
      (∀ l, .line l ∈ new → ∀ w ∈ CC1352P7.errorLines, ¬ w <+: l) → new.any CC1352P7.restBad = false := by
    intro new g1 g2
    rw [List.any_eq_false]
    intro e he
    cases e <;> simp only [CC1352P7.restBad] <;> try simp
    · rename_i l
      intro w hw hp
      exact g2 l he w hw hp
    · exact g1 he
  by_cases hb : new2.any CC1352P7.restBad = false
  · have hk := (k2 hb).1.calm hi'
    have h3 : CC1352P7.RestSince d2.trace d3 := CC1352P7.exec_stages (CC1352P7.rest_sections p d2.trace)
      (CC1352P7.rest_calls _) (CC1352P7.rest_own _) i2 (.start hk) ops3
    obtain ⟨new3, e3, k3⟩ := h3
    refine ⟨new2, new3, e2, e3, fun h => onlyStatus_cc1352p7 (k3 ?_).2⟩
    exact good _ (fun x => h.1 (List.mem_append_right _ x))
      fun l x => h.2 l (List.mem_append_right _ x)
  · obtain ⟨new3, e3⟩ := CC1352P7.exec_grows p d2 ops3
    refine ⟨new2, new3, e2, e3, fun h => absurd (good _ ?_ ?_) hb⟩
    · exact fun x => h.1 (List.mem_append_left _ x)
    · exact fun l x => h.2 l (List.mem_append_left _ x)

/-! ## The other two drivers connect by themselves -/

/-- SIM800: an error message received while the driver is idle starts the connection procedure,
although `connect()` was never called. -/
theorem C31_sim800_unasked :
    ∃ ops, .connect ∉ ops ∧
      .cmd b!"ATE0" b!"ATE0" ∈ (exec (Sim800.step Sess.arm) Sess.sim800 ops).trace :=
  ⟨[.run true, .setApn (some b!"a"), .setHostPort (some b!"h") 80 .tcp, .run true] ++
    Sess.talk b!"ERROR\r\n" ++ [.run true], by decide +kernel, by decide +kernel⟩

/-- CC1352P7: the same. -/
theorem C31_cc1352p7_unasked :
    ∃ ops, .connect ∉ ops ∧
      .cmd b!"ATE0" b!"ATE0" ∈ (exec (CC1352P7.step Sess.arm) Sess.cc1352p7 ops).trace :=
  ⟨[.run true, .setHostPort (some b!"h") 80 .tcp, .run true] ++
    Sess.talk b!"ERROR\r\n" ++ Sess.talk b!"OK\r\n" ++ [.run true, .run true],
    by decide +kernel, by decide +kernel⟩

/-! ## Non-vacuity: connected, then disconnected, then a status request -/

example : let d1 := exec (Sim7x00.step Sess.arm) Sess.sim7x00 (Sess.up7x00 .tcp)
    let d2 := exec (Sim7x00.step Sess.arm) d1 Sess.down7x00
    let d3 := exec (Sim7x00.step Sess.arm) d2 [.requestRSSI, .run true]
    d1.connectPending = false ∧ d1.isConnected = true ∧ d2.isIdle = true ∧
      .apiConnect ∉ d3.trace.drop d1.trace.length ∧ .cmd b!"AT+CSQ" b!"AT+CSQ" ∈ d3.trace := by
  decide +kernel

example : let d1 := exec (Sim800.step Sess.arm) Sess.sim800 (Sess.up800 .tcp)
    let d2 := exec (Sim800.step Sess.arm) d1 Sess.down800
    let d3 := exec (Sim800.step Sess.arm) d2 [.requestRSSI, .run true]
    d1.connectPending = false ∧ d1.resetPending = false ∧ d1.isConnected = true ∧
      d2.isIdle = true ∧ .apiConnect ∉ d3.trace.drop d1.trace.length ∧
      .cmd b!"AT+CSQ" b!"AT+CSQ" ∈ d3.trace := by
  decide +kernel

example : let d1 := exec (Espressif.step Sess.arm) Sess.espressif (Sess.upEsp .tcp)
    let d2 := exec (Espressif.step Sess.arm) d1 Sess.downEsp
    let d3 := exec (Espressif.step Sess.arm) d2 [.requestRSSI, .run true]
    d1.connectPending = false ∧ d1.isConnected = true ∧ d2.isIdle = true ∧
      .apiConnect ∉ d3.trace.drop d1.trace.length ∧ .cmd b!"AT+CWJAP?" b!"AT+CWJAP?" ∈ d3.trace := by
  decide +kernel

example : let d1 := exec (CC1352P7.step Sess.arm) Sess.cc1352p7 (Sess.upCC .tcp)
    let d2 := exec (CC1352P7.step Sess.arm) d1 Sess.downCC
    let d3 := exec (CC1352P7.step Sess.arm) d2 [.requestRSSI, .run true]
    d1.connectPending = false ∧ d1.resetPending = false ∧ d1.isConnected = true ∧
      d2.isIdle = true ∧ .apiConnect ∉ d3.trace.drop d1.trace.length ∧
      .cmd b!"AT+CSQ" b!"AT+CSQ" ∈ d3.trace := by
  decide +kernel

end Verif.Props.Rest
