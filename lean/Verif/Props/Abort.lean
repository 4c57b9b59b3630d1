import Verif.Lemmas.Abort
import Verif.Lemmas.Trips
import Verif.Props.Recovery

/-!
C68: disconnect() during the opening

The application changes its mind: it calls `disconnect()` after any number of answers of the modem on the way to the connection.
The driver gives up as soon as this is possible, closes what has been opened, says the commands of the documented dialogue and nothing
else, whole, and is idle. The next connections are opened and closed as if nothing had happened.

SIM800: this is so if the server accepts the connection. If it refuses, the driver waits for "0, CONNECT OK" for ever.
-/

namespace Verif.Props.Abort

open Verif Dev Spec

/-- C68, SIM7x00. -/
theorem C68_sim7x00 (p : Platform) {rxm txm rmem wmem line ip id : List Byte} {ty : ConnType} {n : Nat}
    (hrx : 60 ≤ rxm.length) (htx : 20 ≤ txm.length) (hn : txm.length ≤ n) (hl : line.length = 61) (hip : ip.length = 16) (hid : 2 ≤ id.length)
    {ts us : List (Trip (List Byte))} (hts : ∀ t ∈ ts ++ us, Fits7x00 txm.length t.access t.peer ∧ t.visit.Ok (open7x00 t.access t.peer) close7x00 stay7x00 (fun _ => True))
    {a : List Byte} {r : Peer} (hf : Fits7x00 txm.length a r) {k : Nat} (hk : k < (open7x00 a r).length) {v : GivenUp}
    (hv : v.Ok ((open7x00 a r).take k) (after7x00 a r k) (fun _ => True)) :
    let d := exec (Sim7x00.step p) (Sim7x00.init (Ser.init rxm txm []) rmem wmem ty line ip id)
      (.run true :: trips setup7x00 n ts ++ (setup7x00 a r ++ v.ops n) ++ trips setup7x00 n us)
    utter d.trace = (ts.flatMap fun t => visit7x00 t.access t.peer) ++
        b!"ATE0\r\n" :: (says ((open7x00 a r).take k) ++ says (after7x00 a r k)) ++ (us.flatMap fun t => visit7x00 t.access t.peer) ∧
      Whole d.trace ∧ d.isIdle = true := by
  intro d
  obtain ⟨c, x, y, e0, e1, e2, hI, hm, h1⟩ := Sim7x00.trips_ok p ts (n := n) hrx htx hn ⟨rfl, rfl, rfl⟩ rfl (Sim7x00.init_ok (p := p) (rmem := rmem) (wmem := wmem) (ty := ty) (fun x => by simp [x] at htx) hl hip hid) fun t ht => hts t (by simp [ht])
  rw [List.nil_append] at h1
  have hf2 : Fits7x00 c.tx a r := by rw [e2]; exact hf
  have hrx2 : 60 ≤ c.rx := by rw [e1]; exact hrx
  have htx2 : 20 ≤ c.tx := by rw [e2]; exact htx
  have hn2 : c.tx ≤ n := by rw [e2]; exact hn
  obtain ⟨z, h2⟩ := Sim7x00.givenUp_ok p (n := n) hrx2 htx2 hn2 hI hm hf2.peer hf2.texts hf2.host h1 hk hv
  obtain ⟨c2, x2, y2, e3, e4, e5, hI2, hm2, h3⟩ := Sim7x00.trips_ok p us (n := n) (c := c.to r) hrx2 htx2 hn2 hI hm h2 (fun t ht => by
    have := hts t (by simp [ht])
    rw [show (c.to r).tx = txm.length from e2]
    exact this)
  rw [← exec_append, ← exec_append, ← List.append_assoc] at h3
  have h4 := h3.1.told.all
  refine ⟨h4.1.trans ?_, h4.2, isIdle_of h3.1.cs⟩
  simp

/-- C68, SIM800. -/
theorem C68_sim800 (p : Platform) {rxm txm rmem wmem line ip id : List Byte} {ty : ConnType} {n : Nat}
    (hrx : 60 ≤ rxm.length) (htx : 20 ≤ txm.length) (hn : txm.length ≤ n) (hl : line.length = 61) (hip : ip.length = 16) (hid : 2 ≤ id.length)
    {ts us : List (Trip (List Byte))} (hts : ∀ t ∈ ts ++ us, Fits800 txm.length t.access t.peer ∧ t.visit.Ok (open800 t.access t.peer) close800 stay800 (Clear errors800))
    {a : List Byte} {r : Peer} (hf : Fits800 txm.length a r) {k : Nat} (hk : k < (open800 a r).length) {v : GivenUp}
    (hv : v.Ok ((open800 a r).take k) (after800 a r k) (Clear errors800)) :
    let d := exec (Sim800.step p) (Sim800.init (Ser.init rxm txm []) rmem wmem ty line ip id)
      (.run true :: trips setup7x00 n ts ++ (setup7x00 a r ++ v.ops n) ++ trips setup7x00 n us)
    utter d.trace = (ts.flatMap fun t => visit800 t.access t.peer) ++
        b!"ATE0\r\n" :: (says ((open800 a r).take k) ++ says (after800 a r k)) ++ (us.flatMap fun t => visit800 t.access t.peer) ∧
      Whole d.trace ∧ d.isIdle = true := by
  intro d
  obtain ⟨c, x, y, e0, e1, e2, hI, hm, h1⟩ := Sim800.trips_ok p ts (n := n) hrx htx hn ⟨rfl, rfl, rfl⟩ rfl (Sim800.init_ok (p := p) (rmem := rmem) (wmem := wmem) (ty := ty) (fun x => by simp [x] at htx) hl hip hid) fun t ht => hts t (by simp [ht])
  rw [List.nil_append] at h1
  have hf2 : Fits800 c.tx a r := by rw [e2]; exact hf
  have hrx2 : 60 ≤ c.rx := by rw [e1]; exact hrx
  have htx2 : 20 ≤ c.tx := by rw [e2]; exact htx
  have hn2 : c.tx ≤ n := by rw [e2]; exact hn
  obtain ⟨z, h2⟩ := Sim800.givenUp_ok p (n := n) hrx2 htx2 hn2 hI hm hf2.peer hf2.name hf2.texts hf2.host h1 hk hv
  obtain ⟨c2, x2, y2, e3, e4, e5, hI2, hm2, h3⟩ := Sim800.trips_ok p us (n := n) (c := c.to r) hrx2 htx2 hn2 hI hm h2 (fun t ht => by
    have := hts t (by simp [ht])
    rw [show (c.to r).tx = txm.length from e2]
    exact this)
  rw [← exec_append, ← exec_append, ← List.append_assoc] at h3
  have h4 := h3.1.told.all
  refine ⟨h4.1.trans ?_, h4.2, isIdle_of h3.1.cs⟩
  simp

/-- C68, Espressif. -/
theorem C68_espressif (p : Platform) {rxm txm rmem wmem line mac : List Byte} {ty : ConnType} {n : Nat}
    (hrx : 60 ≤ rxm.length) (htx : 20 ≤ txm.length) (hn : txm.length ≤ n) (hl : line.length = 61) {ssid passwd : CPtr}
    (hmac : ¬ (p.charSigned = false ∧ mac.getD 1 0 = 255 ∧ mac.getD 0 0 = 0))
    {ts us : List (Trip Wifi)} (hts : ∀ t ∈ ts ++ us, FitsEsp txm.length t.access t.peer ∧ t.visit.Ok (openEsp t.access t.peer) (closeEsp t.peer) (stayEsp t.peer) (restEsp t.peer))
    {a : Wifi} {r : Peer} (hf : FitsEsp txm.length a r) {k : Nat} (hk : k < (openEsp a r).length) {v : GivenUp}
    (hv : v.Ok ((openEsp a r).take k) (afterEsp a r k) (restEsp r)) :
    let d := exec (Espressif.step p) (Espressif.init (Ser.init rxm txm []) rmem wmem ty line mac ssid passwd)
      (.run true :: trips setupEsp n ts ++ (setupEsp a r ++ v.ops n) ++ trips setupEsp n us)
    utter d.trace = (ts.flatMap fun t => visitEsp t.access t.peer) ++
        b!"ATE0\r\n" :: (says ((openEsp a r).take k) ++ says (afterEsp a r k)) ++ (us.flatMap fun t => visitEsp t.access t.peer) ∧
      Whole d.trace ∧ d.isIdle = true := by
  intro d
  obtain ⟨c, x, e0, e1, e2, hI, hm, h1⟩ := Espressif.trips_ok p ts (n := n) hrx htx hn ⟨rfl, rfl, rfl⟩ rfl (Espressif.init_ok (p := p) (rmem := rmem) (wmem := wmem) (ty := ty) (fun x => by simp [x] at htx) hl hmac) fun t ht => hts t (by simp [ht])
  rw [List.nil_append] at h1
  have hf2 : FitsEsp c.tx a r := by rw [e2]; exact hf
  have hrx2 : 60 ≤ c.rx := by rw [e1]; exact hrx
  have htx2 : 20 ≤ c.tx := by rw [e2]; exact htx
  have hn2 : c.tx ≤ n := by rw [e2]; exact hn
  have h2 := Espressif.givenUp_ok p (n := n) hrx2 htx2 hn2 hI hm hf2.peer hf2.wifi hf2.texts h1 hk hv
  obtain ⟨c2, x2, e3, e4, e5, hI2, hm2, h3⟩ := Espressif.trips_ok p us (n := n) (c := c.to r) hrx2 htx2 hn2 hI hm h2 (fun t ht => by
    have := hts t (by simp [ht])
    rw [show (c.to r).tx = txm.length from e2]
    exact this)
  rw [← exec_append, ← exec_append, ← List.append_assoc] at h3
  have h4 := h3.1.told.all
  refine ⟨h4.1.trans ?_, h4.2, isIdle_of h3.1.cs⟩
  simp

/-- C68, CC1352P7. -/
theorem C68_cc1352p7 (p : Platform) {rxm txm rmem wmem line mac : List Byte} {ty : ConnType} {n : Nat}
    (hrx : 60 ≤ rxm.length) (htx : 20 ≤ txm.length) (hn : txm.length ≤ n) (hl : line.length = 61) 
    (hmac : ¬ (p.charSigned = false ∧ mac.getD 1 0 = 255 ∧ mac.getD 0 0 = 0))
    {ts us : List (Trip Unit)} (hts : ∀ t ∈ ts ++ us, FitsCC txm.length t.peer ∧ t.visit.Ok (openCC t.peer) closeCC stayCC (Clear [b!"ERROR"]))
    {r : Peer} (hf : FitsCC txm.length r) {k : Nat} (hk : k < (openCC r).length) {v : GivenUp}
    (hv : v.Ok ((openCC r).take k) (afterCC r k) (Clear [b!"ERROR"])) :
    let d := exec (CC1352P7.step p) (CC1352P7.init (Ser.init rxm txm []) rmem wmem ty line mac)
      (.run true :: trips (fun _ => setupCC) n ts ++ (setupCC r ++ v.ops n) ++ trips (fun _ => setupCC) n us)
    utter d.trace = (ts.flatMap fun t => visitCC t.peer) ++
        b!"ATE0\r\n" :: (says ((openCC r).take k) ++ says (afterCC r k)) ++ (us.flatMap fun t => visitCC t.peer) ∧
      Whole d.trace ∧ d.isIdle = true := by
  intro d
  obtain ⟨c, e0, e1, e2, hI, hm, h1⟩ := CC1352P7.trips_ok p ts (n := n) hrx htx hn ⟨rfl, rfl, rfl⟩ rfl (CC1352P7.init_ok (p := p) (rmem := rmem) (wmem := wmem) (ty := ty) (fun x => by simp [x] at htx) hl hmac) fun t ht => hts t (by simp [ht])
  rw [List.nil_append] at h1
  have hf2 : FitsCC c.tx r := by rw [e2]; exact hf
  have hrx2 : 60 ≤ c.rx := by rw [e1]; exact hrx
  have htx2 : 20 ≤ c.tx := by rw [e2]; exact htx
  have hn2 : c.tx ≤ n := by rw [e2]; exact hn
  have h2 := CC1352P7.givenUp_ok p (n := n) hrx2 htx2 hn2 hI hm hf2.peer hf2.texts h1 hk hv
  obtain ⟨c2, e3, e4, e5, hI2, hm2, h3⟩ := CC1352P7.trips_ok p us (n := n) (c := c.to r) hrx2 htx2 hn2 hI hm h2 (fun t ht => by
    have := hts t (by simp [ht])
    rw [show (c.to r).tx = txm.length from e2]
    exact this)
  rw [← exec_append, ← exec_append, ← List.append_assoc] at h3
  have h4 := h3.1.told.all
  refine ⟨h4.1.trans ?_, h4.2, isIdle_of h3.1.cs⟩
  simp

/-- C68, SIM800: after `disconnect()` while the connection is awaited, and whatever the modem says except for "0, CONNECT OK", data, the end of a
connection and errors, the driver is not idle and does not say anything. -/
theorem C68_sim800_stuck (p : Platform) {rxm txm rmem wmem line ip id : List Byte} {ty : ConnType} {n : Nat}
    (hrx : 60 ≤ rxm.length) (htx : 20 ≤ txm.length) (hn : txm.length ≤ n) (hl : line.length = 61) (hip : ip.length = 16) (hid : 2 ≤ id.length)
    {a : List Byte} {r : Peer} (hf : Fits800 txm.length a r) (m i : Nat) {bs : List Beat} (hb : Dialogue ((open800 a r).take 8) bs)
    {xs : List Spoken} (hx : ∀ x ∈ xs, x.Is (Clear (b!"0, CONNECT OK" :: b!"+CIPRXGET: 1,0" :: b!"0, CLOSED" :: errors800))) :
    let d := exec (Sim800.step p) (Sim800.init (Ser.init rxm txm []) rmem wmem ty line ip id)
      (.run true :: setup7x00 a r ++ (dial m ++ ops n bs) ++ giveUp i ++ hearAll n xs)
    utter d.trace = b!"ATE0\r\n" :: says ((open800 a r).take 8) ∧ d.isIdle = false := by
  intro d
  have h1 := Sim800.arrive_ok p (n := n) hrx htx hn ⟨rfl, rfl, rfl⟩ rfl hf.peer hf.name hf.texts hf.host
    (Sim800.init_ok (p := p) (rmem := rmem) (wmem := wmem) (ty := ty) (fun x => by simp [x] at htx) hl hip hid) m (show 8 ≤ 9 by omega) hb
  have h2 := exec_giveUp (P := Sim800.StageD false _ a r [] _ 8) (Q := Sim800.StageD true _ a r [] _ 8)
    (step := Sim800.step p) (fun d hd => Sim800.StageD.disconnect (Nat.le_refl _) hd) (fun d hd => Sim800.StageD.run (Nat.le_refl _) hd) h1 i
  have h3 := Sim800.cut_stuck p (n := n) (c := (Conf.start rxm.length txm.length wmem.length rmem.length ty).to r) hrx htx hn ⟨rfl, rfl, rfl⟩ rfl h2 hx
  rw [← exec_append, ← exec_append, ← List.append_assoc] at h3
  rcases h3 with h | h
  · exact ⟨h.told.all.1, by unfold Dev.isIdle; rw [show d.cs = .intermediate from h.cs]; decide⟩
  · exact ⟨h.told.all.1, by unfold Dev.isIdle; rw [show d.cs = .intermediate from h.cs]; decide⟩

/-! ### Examples -/

open Handshake Recovery

/-- SIM7x00: `disconnect()` after the first answer, and after the name of the host was found. -/
example : (⟨2, [okBeat], 1, [slow b!"OK", slow b!"OK", slow b!"OK"], [ringing 3]⟩ : GivenUp).Ok ((open7x00 b!"internet" server).take 1)
      (after7x00 b!"internet" server 1) (fun _ => True) ∧
    (⟨2, (trip7x00 server).visit.up.take 7, 0, [slow b!"OK", slow b!"+CIPOPEN: 0,0", slow b!"+NETCLOSE: 0"], []⟩ : GivenUp).Ok
      ((open7x00 b!"internet" server).take 7) (after7x00 b!"internet" server 7) (fun _ => True) := by
  have hb {bad : List (List Byte)} (h : ∀ w ∈ b!"OK" :: bad, ¬ w <+: (b!"RING\r" ++ [nl])) : Answers (await b!"OK" bad) okBeat := okBeat_ok h
  have hd : IsLine (b!"+CDNSGIP: 1,\"x\",\"" ++ server.addr ++ b!"\"\r" ++ [nl]) ∧ (34 : Byte) ∉ server.addr := ⟨line_of (by decide), by decide⟩
  have ho {bad : List (List Byte)} : Answers (await b!"OK" bad) (slow b!"OK") := slow_ok (by decide) (by show b!"OK" <+: _; decide)
  refine ⟨⟨.cons (hb (by decide)) .nil, .cons ho (.cons ho (.cons ho .nil)), ?_, ring 3 trivial⟩,
    ⟨.cons (hb (by decide)) <| .cons (hb (by decide)) <| .cons (hb (by decide)) <| .cons (hb (by decide)) <|
      .cons (beat_of (by decide) (by show b!"+NETOPEN: 0" <+: _; decide)) <| .cons (hb (by decide)) <|
      .cons ⟨⟨by simp, hd.1, b!"x", b!"\r\n", by simp [nl, Spoken.text], by decide, hd.2, by decide⟩, by simp⟩ .nil,
      .cons ho <| .cons (slow_ok (by decide) (by show b!"+CIPOPEN: 0,0" <+: _; decide)) <|
      .cons (slow_ok (by decide) (by show b!"+NETCLOSE: 0" <+: _; decide)) .nil, ?_, by simp⟩⟩
  · simp [Beat.Slow, slow]
  · simp [Beat.Slow, slow]

/-- SIM800: `disconnect()` after the first answer, and while the connection is awaited. -/
example : (⟨2, [okBeat], 1, [slow b!"OK", slow b!"OK", slow b!"OK", slow b!"OK", slow b!"SHUT OK"], [ringing 3]⟩ : GivenUp).Ok
      ((open800 b!"internet" server).take 1) (after800 b!"internet" server 1) (Clear errors800) ∧
    (⟨2, (trip800 server).visit.up.take 8, 0, [slow b!"0, CONNECT OK", slow b!"SHUT OK"], []⟩ : GivenUp).Ok
      ((open800 b!"internet" server).take 8) (after800 b!"internet" server 8) (Clear errors800) ∧
    (⟨[], b!"0, CONNECT FAIL\r" ++ [nl], 5⟩ : Spoken).Is (Clear (b!"0, CONNECT OK" :: b!"+CIPRXGET: 1,0" :: b!"0, CLOSED" :: errors800)) := by
  have hc {bad : List (List Byte)} (h : ∀ w ∈ bad, ¬ w <+: (b!"RING\r" ++ [nl])) : Spec.Clear bad (b!"RING\r" ++ [nl]) := h
  have hb {bad : List (List Byte)} (h : ∀ w ∈ b!"OK" :: bad, ¬ w <+: (b!"RING\r" ++ [nl])) : Answers (await b!"OK" bad) okBeat := okBeat_ok h
  have hd : IsLine (b!"+CDNSGIP: 1,\"x\",\"" ++ server.addr ++ b!"\"\r" ++ [nl]) ∧ (34 : Byte) ∉ server.addr := ⟨line_of (by decide), by decide⟩
  have ho {bad : List (List Byte)} : Answers (await b!"OK" bad) (slow b!"OK") := slow_ok (by decide) (by show b!"OK" <+: _; decide)
  have hs {bad : List (List Byte)} : Answers (await b!"SHUT OK" bad) (slow b!"SHUT OK") := slow_ok (by decide) (by show b!"SHUT OK" <+: _; decide)
  refine ⟨⟨.cons (hb (by decide)) .nil, .cons ho (.cons ho (.cons ho (.cons ho (.cons hs .nil)))), ?_, ring 3 (hc (by decide))⟩,
    ⟨.cons (hb (by decide)) <| .cons (hb (by decide)) <| .cons (hb (by decide)) <| .cons (hb (by decide)) <| .cons (hb (by decide)) <|
      .cons (beat_ring (by decide) ⟨by unfold dots; decide, by unfold Spec.Clear; decide⟩ ⟨by unfold dots; decide, hc (by decide)⟩) <|
      .cons ⟨⟨by simp, hd.1, b!"x", b!"\r\n", by simp [nl, Spoken.text], by decide, hd.2, by decide⟩, ring _ (hc (by decide))⟩ <|
      .cons (hb (by decide)) .nil,
      .cons (slow_ok (by decide) (by show b!"0, CONNECT OK" <+: _; decide)) (.cons hs .nil), ?_, by simp⟩,
    ⟨by simp, line_of (by decide), by unfold Spec.Clear; decide⟩⟩
  · simp [Beat.Slow, slow]
  · simp [Beat.Slow, slow]

/-- Espressif: `disconnect()` after the second answer. -/
example : (⟨2, [okBeat, okBeat], 1, [slow b!"OK", slow b!"OK", slow b!"OK", slow b!"OK", slow b!"OK", slow b!"OK", slow b!"WIFI DISCONNECT"], [ringing 3]⟩ : GivenUp).Ok
      ((openEsp home server).take 2) (afterEsp home server 2) (restEsp server) := by
  have hp : Spec.plain server.typ (b!"RING\r" ++ [nl]) := .inr (by decide)
  have hb {bad : List (List Byte)} (h : ∀ w ∈ b!"OK" :: bad, ¬ w <+: (b!"RING\r" ++ [nl])) : Answers (awaitPlain server.typ b!"OK" bad) okBeat :=
    beat_ring (by decide) ⟨by decide, .inr (by decide)⟩ ⟨h, hp⟩
  have ho {bad : List (List Byte)} : Answers (awaitPlain server.typ b!"OK" bad) (slow b!"OK") := slow_ok (by decide) ⟨by decide, .inr (by decide)⟩
  refine ⟨.cons (hb (by decide)) (.cons (hb (by decide)) .nil), .cons ho <| .cons ho <| .cons ho <| .cons ho <| .cons ho <| .cons ho <|
    .cons (slow_ok (by decide) ⟨by decide, .inr (by decide)⟩) .nil, ?_, ring 3 ⟨by unfold Spec.Clear; decide, hp⟩⟩
  simp [Beat.Slow, slow]

/-- CC1352P7: `disconnect()` before the first answer. -/
example : (⟨2, [], 1, [slow b!"OK", slow b!"OK", slow b!"OK"], [ringing 3]⟩ : GivenUp).Ok
      ((openCC server).take 0) (afterCC server 0) (Clear [b!"ERROR"]) := by
  have ho {bad : List (List Byte)} : Answers (await b!"OK" bad) (slow b!"OK") := slow_ok (by decide) (by show b!"OK" <+: _; decide)
  refine ⟨.nil, .cons ho (.cons ho (.cons ho .nil)), ?_, ring 3 (by unfold Spec.Clear; decide)⟩
  simp [Beat.Slow, slow]

end Verif.Props.Abort
