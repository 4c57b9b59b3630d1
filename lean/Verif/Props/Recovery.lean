import Verif.Lemmas.RecoverSeen
import Verif.Props.Handshake

/-!
C67: Recovery after refusals

A modem refuses commands of the driver as often as it likes, at any step on the way to the connection, also while the driver
recovers, and answers whatever it likes to answer before. The driver resets the modem (SIM800 and CC1352P7: closes what is open)
and starts over, without any help of the application. It says just the commands of the documented dialogue in this order, whole.
As soon as the modem has given all answers, the connection is reported. `connect()` was called once.
-/

namespace Verif.Props.Recovery

open Verif Dev Spec

/-- C67, SIM7x00. -/
theorem C67_sim7x00 (p : Platform) {rxm txm rmem wmem line ip id : List Byte} {ty : ConnType} {n : Nat}
    (hrx : 60 ≤ rxm.length) (htx : 20 ≤ txm.length) (hn : txm.length ≤ n) (hl : line.length = 61) (hip : ip.length = 16) (hid : 2 ≤ id.length)
    {ts : List (Trip (List Byte))}
    (hts : ∀ t ∈ ts, Fits7x00 txm.length t.access t.peer ∧ t.visit.Ok (open7x00 t.access t.peer) close7x00 stay7x00 (fun _ => True))
    {a : List Byte} {r : Peer} (hf : Fits7x00 txm.length a r) (m : Nat) {ss : List Setback} {U V : List (List Byte)} {i j : Nat}
    (hs : (plan7x00 a r).Setbacks 1 ss U i) {bs : List Beat} (hb : (plan7x00 a r).Steps i bs V j) :
    let d := exec (Sim7x00.step p) (Sim7x00.init (Ser.init rxm txm []) rmem wmem ty line ip id)
      (.run true :: trips setup7x00 n ts ++ (setup7x00 a r ++ (dial m ++ (setbacks n ss ++ ops n bs))))
    utter d.trace = (ts.flatMap fun t => visit7x00 t.access t.peer) ++ b!"ATE0\r\n" :: (U ++ V) ∧ Whole d.trace ∧
      d.isIdle = false ∧ d.isConnected = decide (j = 10) := by
  intro d
  obtain ⟨c, x, y, e0, e1, e2, hI, hm, h1⟩ := Sim7x00.trips_ok p ts (n := n) hrx htx hn ⟨rfl, rfl, rfl⟩ rfl (Sim7x00.init_ok (p := p) (rmem := rmem) (wmem := wmem) (ty := ty) (fun x => by simp [x] at htx) hl hip hid) hts
  rw [List.nil_append] at h1
  have hz : c.rd = 0 ∧ c.bw = 0 := ⟨congrArg Conf.rd (e0 r), congrArg Conf.bw (e0 r)⟩
  have hf2 : Fits7x00 c.tx a r := by rw [e2]; exact hf
  have h2 := Sim7x00.recover_ok p (n := n) (by rw [e1]; exact hrx) (by rw [e2]; exact htx) (by rw [e2]; exact hn) hI hz hm hf2.peer hf2.texts hf2.host h1 m hs hb
  rw [← exec_append] at h2
  obtain ⟨h3, h4, h5⟩ := Sim7x00.Step.seen h2
  have h6 := h3.all
  exact ⟨h6.1.trans (by simp), h6.2, h4, h5⟩

/-- C67, SIM800. -/
theorem C67_sim800 (p : Platform) {rxm txm rmem wmem line ip id : List Byte} {ty : ConnType} {n : Nat}
    (hrx : 60 ≤ rxm.length) (htx : 20 ≤ txm.length) (hn : txm.length ≤ n) (hl : line.length = 61) (hip : ip.length = 16) (hid : 2 ≤ id.length)
    {ts : List (Trip (List Byte))}
    (hts : ∀ t ∈ ts, Fits800 txm.length t.access t.peer ∧ t.visit.Ok (open800 t.access t.peer) close800 stay800 (Clear errors800))
    {a : List Byte} {r : Peer} (hf : Fits800 txm.length a r) (m : Nat) {ss : List Setback} {U V : List (List Byte)} {i j : Nat}
    (hs : (plan800 a r).Setbacks 1 ss U i) {bs : List Beat} (hb : (plan800 a r).Steps i bs V j) :
    let d := exec (Sim800.step p) (Sim800.init (Ser.init rxm txm []) rmem wmem ty line ip id)
      (.run true :: trips setup7x00 n ts ++ (setup7x00 a r ++ (dial m ++ (setbacks n ss ++ ops n bs))))
    utter d.trace = (ts.flatMap fun t => visit800 t.access t.peer) ++ b!"ATE0\r\n" :: (U ++ V) ∧ Whole d.trace ∧
      d.isIdle = false ∧ d.isConnected = decide (j = 10) := by
  intro d
  obtain ⟨c, x, y, e0, e1, e2, hI, hm, h1⟩ := Sim800.trips_ok p ts (n := n) hrx htx hn ⟨rfl, rfl, rfl⟩ rfl (Sim800.init_ok (p := p) (rmem := rmem) (wmem := wmem) (ty := ty) (fun x => by simp [x] at htx) hl hip hid) hts
  rw [List.nil_append] at h1
  have hz : c.rd = 0 ∧ c.bw = 0 := ⟨congrArg Conf.rd (e0 r), congrArg Conf.bw (e0 r)⟩
  have hf2 : Fits800 c.tx a r := by rw [e2]; exact hf
  have h2 := Sim800.recover_ok p (n := n) (by rw [e1]; exact hrx) (by rw [e2]; exact htx) (by rw [e2]; exact hn) hI hz hm hf2.peer hf2.name hf2.texts hf2.host h1 m hs hb
  rw [← exec_append] at h2
  obtain ⟨h3, h4, h5⟩ := Sim800.Step.seen h2
  have h6 := h3.all
  exact ⟨h6.1.trans (by simp), h6.2, h4, h5⟩

/-- C67, Espressif. -/
theorem C67_espressif (p : Platform) {rxm txm rmem wmem line mac : List Byte} {ty : ConnType} {n : Nat}
    (hrx : 60 ≤ rxm.length) (htx : 20 ≤ txm.length) (hn : txm.length ≤ n) (hl : line.length = 61) {ssid passwd : CPtr}
    (hmac : ¬ (p.charSigned = false ∧ mac.getD 1 0 = 255 ∧ mac.getD 0 0 = 0))
    {ts : List (Trip Wifi)}
    (hts : ∀ t ∈ ts, FitsEsp txm.length t.access t.peer ∧ t.visit.Ok (openEsp t.access t.peer) (closeEsp t.peer) (stayEsp t.peer) (restEsp t.peer))
    {a : Wifi} {r : Peer} (hf : FitsEsp txm.length a r) (m : Nat) {ss : List Setback} {U V : List (List Byte)} {i j : Nat}
    (hs : (planEsp a r).Setbacks 1 ss U i) {bs : List Beat} (hb : (planEsp a r).Steps i bs V j) :
    let d := exec (Espressif.step p) (Espressif.init (Ser.init rxm txm []) rmem wmem ty line mac ssid passwd)
      (.run true :: trips setupEsp n ts ++ (setupEsp a r ++ (dial m ++ (setbacks n ss ++ ops n bs))))
    utter d.trace = (ts.flatMap fun t => visitEsp t.access t.peer) ++ b!"ATE0\r\n" :: (U ++ V) ∧ Whole d.trace ∧
      d.isIdle = false ∧ d.isConnected = decide (j = 8) := by
  intro d
  obtain ⟨c, x, e0, e1, e2, hI, hm, h1⟩ := Espressif.trips_ok p ts (n := n) hrx htx hn ⟨rfl, rfl, rfl⟩ rfl (Espressif.init_ok (p := p) (rmem := rmem) (wmem := wmem) (ty := ty) (fun x => by simp [x] at htx) hl hmac) hts
  rw [List.nil_append] at h1
  have hz : c.rd = 0 ∧ c.bw = 0 := ⟨congrArg Conf.rd (e0 r), congrArg Conf.bw (e0 r)⟩
  have hf2 : FitsEsp c.tx a r := by rw [e2]; exact hf
  have h2 := Espressif.recover_ok p (n := n) (by rw [e1]; exact hrx) (by rw [e2]; exact htx) (by rw [e2]; exact hn) hI hz hm hf2.peer hf2.wifi hf2.texts h1 m hs hb
  rw [← exec_append] at h2
  obtain ⟨h3, h4, h5⟩ := Espressif.Step.seen h2
  have h6 := h3.all
  exact ⟨h6.1.trans (by simp), h6.2, h4, h5⟩

/-- C67, CC1352P7. -/
theorem C67_cc1352p7 (p : Platform) {rxm txm rmem wmem line mac : List Byte} {ty : ConnType} {n : Nat}
    (hrx : 60 ≤ rxm.length) (htx : 20 ≤ txm.length) (hn : txm.length ≤ n) (hl : line.length = 61) 
    (hmac : ¬ (p.charSigned = false ∧ mac.getD 1 0 = 255 ∧ mac.getD 0 0 = 0))
    {ts : List (Trip Unit)}
    (hts : ∀ t ∈ ts, FitsCC txm.length t.peer ∧ t.visit.Ok (openCC t.peer) closeCC stayCC (Clear [b!"ERROR"]))
    {r : Peer} (hf : FitsCC txm.length r) (m : Nat) {ss : List Setback} {U V : List (List Byte)} {i j : Nat}
    (hs : (planCC r).Setbacks 1 ss U i) {bs : List Beat} (hb : (planCC r).Steps i bs V j) :
    let d := exec (CC1352P7.step p) (CC1352P7.init (Ser.init rxm txm []) rmem wmem ty line mac)
      (.run true :: trips (fun _ => setupCC) n ts ++ (setupCC r ++ (dial m ++ (setbacks n ss ++ ops n bs))))
    utter d.trace = (ts.flatMap fun t => visitCC t.peer) ++ b!"ATE0\r\n" :: (U ++ V) ∧ Whole d.trace ∧
      d.isIdle = false ∧ d.isConnected = decide (j = 3) := by
  intro d
  obtain ⟨c, e0, e1, e2, hI, hm, h1⟩ := CC1352P7.trips_ok p ts (n := n) hrx htx hn ⟨rfl, rfl, rfl⟩ rfl (CC1352P7.init_ok (p := p) (rmem := rmem) (wmem := wmem) (ty := ty) (fun x => by simp [x] at htx) hl hmac) hts
  rw [List.nil_append] at h1
  have hz : c.rd = 0 ∧ c.bw = 0 := ⟨congrArg Conf.rd (e0 r), congrArg Conf.bw (e0 r)⟩
  have hf2 : FitsCC c.tx r := by rw [e2]; exact hf
  have h2 := CC1352P7.recover_ok p (n := n) (by rw [e1]; exact hrx) (by rw [e2]; exact htx) (by rw [e2]; exact hn) hI hz hm hf2.peer hf2.texts h1 m hs hb
  rw [← exec_append] at h2
  obtain ⟨h3, h4, h5⟩ := CC1352P7.Step.seen h2
  have h6 := h3.all
  exact ⟨h6.1.trans (by simp), h6.2, h4, h5⟩

/-! ### Examples -/

open Handshake

/-- A refusal, or an answer after which there is enough time. -/
def slow (t : List Byte) : Beat := ⟨[], [], t ++ b!"\r" ++ [nl], 2⟩

theorem slow_ok {a : Await} {t : List Byte} (h : (t ++ b!"\r").length < 60 ∧ nl ∉ t ++ b!"\r" ∧ gt ∉ t ++ b!"\r" ∧ (0 : Byte) ∉ t ++ b!"\r")
    (hg : a.good (t ++ b!"\r" ++ [nl])) : Answers a (slow t) := beat_of h hg

/-- SIM7x00: the first command, the reset and the look-up of the host are refused; then the modem answers up to the connection. -/
example : ∃ U V, (plan7x00 b!"internet" server).Setbacks 1
      [⟨[], slow b!"ERROR"⟩, ⟨[], slow b!"ERROR"⟩,
        ⟨[slow b!"RDY", okBeat, okBeat, okBeat, okBeat, ⟨[], [], b!"+NETOPEN: 0\r" ++ [nl], 0⟩, okBeat], slow b!"+CDNSGIP: 0,8"⟩] U 0 ∧
    (plan7x00 b!"internet" server).Steps 0 (slow b!"RDY" :: (trip7x00 server).visit.up) V 10 := by
  have hb {bad : List (List Byte)} (h : ∀ w ∈ b!"OK" :: bad, ¬ w <+: (b!"RING\r" ++ [nl])) : Answers (await b!"OK" bad) okBeat := okBeat_ok h
  have hd : IsLine (b!"+CDNSGIP: 1,\"x\",\"" ++ server.addr ++ b!"\"\r" ++ [nl]) ∧ (34 : Byte) ∉ server.addr := ⟨line_of (by decide), by decide⟩
  have hu : IsLine (b!"+CDNSGIP: 0,8\r" ++ [nl]) := line_of (by decide)
  have h9 : ∃ W, (plan7x00 b!"internet" server).Steps 0 (slow b!"RDY" :: (trip7x00 server).visit.up) W 10 :=
    ⟨_, .cons (by decide) (slow_ok (by decide) (by show b!"RDY" <+: _; decide)) (fun _ => by unfold Beat.Slow; decide) <|
      .cons (by decide) (hb (by decide)) nofun <| .cons (by decide) (hb (by decide)) nofun <| .cons (by decide) (hb (by decide)) nofun <|
      .cons (by decide) (hb (by decide)) nofun <| .cons (by decide) (beat_of (by decide) (by show b!"+NETOPEN: 0" <+: _; decide)) nofun <|
      .cons (by decide) (hb (by decide)) nofun <|
      .cons (by decide) ⟨⟨by simp, hd.1, b!"x", b!"\r\n", by simp [nl, Spoken.text], by decide, hd.2, by decide⟩, by simp⟩ nofun <|
      .cons (by decide) (hb (by decide)) nofun <|
      .cons (by decide) (beat_ring (by decide) (by show b!"+CIPOPEN: 0,0" <+: _; decide) (by show Spec.Clear _ _; unfold Spec.Clear; decide)) nofun (.nil _)⟩
  obtain ⟨W9, h9⟩ := h9
  exact ⟨_, _, .cons (j := 1) (.nil _) (slow_ok (by decide) (Or.inl (by decide))) (by unfold Beat.Slow; decide) <|
    .cons (i := 0) (j := 0) (.nil _) (slow_ok (by decide) (Or.inl (by decide))) (by unfold Beat.Slow; decide) <|
    .cons (i := 0) (j := 7) (.cons (by decide) (slow_ok (by decide) (by show b!"RDY" <+: _; decide)) (fun _ => by unfold Beat.Slow; decide) <|
      .cons (by decide) (hb (by decide)) nofun <| .cons (by decide) (hb (by decide)) nofun <| .cons (by decide) (hb (by decide)) nofun <|
      .cons (by decide) (hb (by decide)) nofun <| .cons (by decide) (beat_of (by decide) (by show b!"+NETOPEN: 0" <+: _; decide)) nofun <|
      .cons (by decide) (hb (by decide)) nofun (.nil _))
      ⟨⟨by simp [slow], hu, .inr (Or.inl ⟨rfl, by decide⟩)⟩, by simp [slow]⟩ (by unfold Beat.Slow; decide) (.nil _), h9⟩

/-- SIM800: the access point is refused, then the connection, then the end of it; the modem loses an open connection. -/
example : ∃ U V, (plan800 b!"internet" server).Setbacks 1
      [⟨[okBeat, okBeat], slow b!"+CME ERROR: 3"⟩,
        ⟨(trip800 server).visit.up.take 8, slow b!"0, CONNECT FAIL"⟩, ⟨[], slow b!"ERROR"⟩,
        ⟨(trip800 server).visit.up, slow b!"+PDP: DEACT"⟩] U 0 ∧
    (plan800 b!"internet" server).Steps 0 (slow b!"SHUT OK" :: (trip800 server).visit.up) V 10 := by
  have hc {bad : List (List Byte)} (h : ∀ w ∈ bad, ¬ w <+: (b!"RING\r" ++ [nl])) : Spec.Clear bad (b!"RING\r" ++ [nl]) := h
  have hb {bad : List (List Byte)} (h : ∀ w ∈ b!"OK" :: bad, ¬ w <+: (b!"RING\r" ++ [nl])) : Answers (await b!"OK" bad) okBeat := okBeat_ok h
  have hd : IsLine (b!"+CDNSGIP: 1,\"x\",\"" ++ server.addr ++ b!"\"\r" ++ [nl]) ∧ (34 : Byte) ∉ server.addr := ⟨line_of (by decide), by decide⟩
  have h8 : ∃ W, (plan800 b!"internet" server).Steps 1 ((trip800 server).visit.up.take 8) W 9 :=
    ⟨_, .cons (by decide) (hb (by decide)) nofun <| .cons (by decide) (hb (by decide)) nofun <| .cons (by decide) (hb (by decide)) nofun <|
      .cons (by decide) (hb (by decide)) nofun <| .cons (by decide) (hb (by decide)) nofun <|
      .cons (by decide) (beat_ring (by decide) ⟨by unfold dots; decide, by unfold Spec.Clear; decide⟩ ⟨by unfold dots; decide, hc (by decide)⟩) nofun <|
      .cons (by decide) ⟨⟨by simp, hd.1, b!"x", b!"\r\n", by simp [nl, Spoken.text], by decide, hd.2, by decide⟩, ring _ (hc (by decide))⟩ nofun <|
      .cons (by decide) (hb (by decide)) nofun (.nil _)⟩
  have h9 : ∃ W, (plan800 b!"internet" server).Steps 1 (trip800 server).visit.up W 10 :=
    ⟨_, .cons (by decide) (hb (by decide)) nofun <| .cons (by decide) (hb (by decide)) nofun <| .cons (by decide) (hb (by decide)) nofun <|
      .cons (by decide) (hb (by decide)) nofun <| .cons (by decide) (hb (by decide)) nofun <|
      .cons (by decide) (beat_ring (by decide) ⟨by unfold dots; decide, by unfold Spec.Clear; decide⟩ ⟨by unfold dots; decide, hc (by decide)⟩) nofun <|
      .cons (by decide) ⟨⟨by simp, hd.1, b!"x", b!"\r\n", by simp [nl, Spoken.text], by decide, hd.2, by decide⟩, ring _ (hc (by decide))⟩ nofun <|
      .cons (by decide) (hb (by decide)) nofun <|
      .cons (by decide) (beat_ring (by decide) (by show b!"0, CONNECT OK" <+: _; decide) (hc (by decide))) nofun (.nil _)⟩
  obtain ⟨W8, h8⟩ := h8
  obtain ⟨W9, h9⟩ := h9
  exact ⟨_, _, .cons (j := 3) (.cons (by decide) (hb (by decide)) nofun <| .cons (by decide) (hb (by decide)) nofun (.nil _))
      (slow_ok (by decide) (Or.inl ⟨b!"+CME ERROR", by decide, by decide⟩)) (by unfold Beat.Slow; decide) <|
    .cons (i := 1) (j := 9) h8 (slow_ok (by decide) (Or.inr (.inr ⟨rfl, by decide⟩))) (by unfold Beat.Slow; decide) <|
    .cons (i := 0) (j := 0) (.nil _) (slow_ok (by decide) (Or.inl ⟨b!"ERROR", by decide, by decide⟩)) (by unfold Beat.Slow; decide) <|
    .cons (i := 1) (j := 10) h9 (slow_ok (by decide) ⟨b!"+PDP: DEACT", by decide, by decide⟩) (by unfold Beat.Slow; decide) (.nil _),
    .cons (by decide) (slow_ok (by decide) (by show b!"SHUT OK" <+: _; decide)) (fun _ => by unfold Beat.Slow; decide) h9⟩

/-- Espressif: the network cannot be joined; the open connection fails. -/
example : ∃ U V, (planEsp home server).Setbacks 1
      [⟨[okBeat, okBeat], slow b!"FAIL"⟩, ⟨slow b!"ready" :: (tripEsp server).visit.up, slow b!"ERROR"⟩] U 0 ∧
    (planEsp home server).Steps 0 (slow b!"ready" :: (tripEsp server).visit.up) V 8 := by
  have hp : Spec.plain server.typ (b!"RING\r" ++ [nl]) := .inr (by decide)
  have hb {bad : List (List Byte)} (h : ∀ w ∈ b!"OK" :: bad, ¬ w <+: (b!"RING\r" ++ [nl])) : Answers (awaitPlain server.typ b!"OK" bad) okBeat :=
    beat_ring (by decide) ⟨by decide, .inr (by decide)⟩ ⟨h, hp⟩
  have h9 : ∃ W, (planEsp home server).Steps 0 (slow b!"ready" :: (tripEsp server).visit.up) W 8 :=
    ⟨_, .cons (by decide) (slow_ok (by decide) ⟨by decide, .inr (by decide)⟩) (fun _ => by unfold Beat.Slow; decide) <|
      .cons (by decide) (hb (by decide)) nofun <| .cons (by decide) (hb (by decide)) nofun <| .cons (by decide) (hb (by decide)) nofun <|
      .cons (by decide) (hb (by decide)) nofun <| .cons (by decide) (hb (by decide)) nofun <| .cons (by decide) (hb (by decide)) nofun <|
      .cons (by decide) (hb (by decide)) nofun (.nil _)⟩
  obtain ⟨W9, h9⟩ := h9
  exact ⟨_, _, .cons (j := 3) (.cons (by decide) (hb (by decide)) nofun <| .cons (by decide) (hb (by decide)) nofun (.nil _))
      (slow_ok (by decide) ⟨⟨b!"FAIL", by decide, by decide⟩, .inr (by decide)⟩) (by unfold Beat.Slow; decide) <|
    .cons (i := 0) (j := 8) h9 (slow_ok (by decide) ⟨⟨b!"ERROR", by decide, by decide⟩, .inr (by decide)⟩) (by unfold Beat.Slow; decide) (.nil _), h9⟩

/-- CC1352P7: the connection is refused, then the end of it; data cannot be sent over the next. -/
example : ∃ U V, (planCC server).Setbacks 1
      [⟨[okBeat], slow b!"ERROR"⟩, ⟨[], slow b!"ERROR"⟩, ⟨slow b!"OK" :: (tripCC server).visit.up, slow b!"SEND FAIL"⟩] U 0 ∧
    (planCC server).Steps 0 (slow b!"OK" :: (tripCC server).visit.up) V 3 := by
  have hb {bad : List (List Byte)} (h : ∀ w ∈ b!"OK" :: bad, ¬ w <+: (b!"RING\r" ++ [nl])) : Answers (await b!"OK" bad) okBeat := okBeat_ok h
  have h9 : ∃ W, (planCC server).Steps 0 (slow b!"OK" :: (tripCC server).visit.up) W 3 :=
    ⟨_, .cons (by decide) (slow_ok (by decide) (by show b!"OK" <+: _; decide)) (fun _ => by unfold Beat.Slow; decide) <|
      .cons (by decide) (hb (by decide)) nofun <| .cons (by decide) (hb (by decide)) nofun (.nil _)⟩
  obtain ⟨W9, h9⟩ := h9
  exact ⟨_, _, .cons (j := 2) (.cons (by decide) (hb (by decide)) nofun (.nil _)) (slow_ok (by decide) (Or.inl (by decide))) (by unfold Beat.Slow; decide) <|
    .cons (i := 0) (j := 0) (.nil _) (slow_ok (by decide) (Or.inl (by decide))) (by unfold Beat.Slow; decide) <|
    .cons (i := 0) (j := 3) h9 (slow_ok (by decide) ⟨b!"SEND FAIL", by decide, by decide⟩) (by unfold Beat.Slow; decide) (.nil _), h9⟩

end Verif.Props.Recovery
