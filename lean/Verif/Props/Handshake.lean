import Verif.Lemmas.Trips
import Verif.Spec.Sessions

/-!
# C44, C45, C61: connections from the request to the end

The environment is that of `Verif.Spec.Chat`: a modem that gives the awaited answers, with any other lines between them,
any number of calls of `run()` after each line, and any number of connections one after the other, with any settings
that fit into the buffers.

* C44: at every point of the opening, the commands sent are those of the documented sequence with the settings of the
  application inserted, all of them whole; the driver reports the connection after the last answer, and not before.
* C45: after `disconnect()` and the answers of the modem the driver is idle, having sent the documented commands.
* C61: if the server closes the connection, the drivers for SIM800, Espressif and CC1352P7 close their side and become
  idle. The driver for SIM7x00 reports the connection for ever.
-/

namespace Verif.Props.Handshake

open Verif Dev Spec

/-! ### SIM7x00 -/

/-- C44, SIM7x00: after `connect()` and `k` answers of the modem the driver has sent the first `k + 1` commands of the
sequence, and reports a connection if these are all. -/
theorem C44_sim7x00 (p : Platform) {rxm txm rmem wmem line ip id : List Byte} {ty : ConnType} {n : Nat}
    (hrx : 60 ≤ rxm.length) (htx : 20 ≤ txm.length) (hn : txm.length ≤ n) (hl : line.length = 61) (hip : ip.length = 16) (hid : 2 ≤ id.length)
    {ts : List (Trip (List Byte))}
    (hts : ∀ t ∈ ts, Fits7x00 txm.length t.access t.peer ∧ t.visit.Ok (open7x00 t.access t.peer) close7x00 stay7x00 (fun _ => True))
    {a : List Byte} {r : Peer} (hf : Fits7x00 txm.length a r) (i : Nat) {k : Nat} (hk : k ≤ 9) {bs : List Beat}
    (hb : Dialogue ((open7x00 a r).take k) bs) :
    let d := exec (Sim7x00.step p) (Sim7x00.init (Ser.init rxm txm []) rmem wmem ty line ip id)
      (.run true :: trips setup7x00 n ts ++ (setup7x00 a r ++ (dial i ++ ops n bs)))
    utter d.trace = (ts.flatMap fun t => visit7x00 t.access t.peer) ++ b!"ATE0\r\n" :: says ((open7x00 a r).take k) ∧ Whole d.trace ∧
      d.isIdle = false ∧ d.isConnected = decide (k = 9) := by
  intro d
  obtain ⟨c, x, y, _, e1, e2, hI, hm, h1⟩ := Sim7x00.trips_ok p ts (n := n) hrx htx hn ⟨rfl, rfl, rfl⟩ rfl (Sim7x00.init_ok (p := p) (rmem := rmem) (wmem := wmem) (ty := ty) (fun x => by simp [x] at htx) hl hip hid) hts
  rw [List.nil_append] at h1
  have hf2 : Fits7x00 c.tx a r := by rw [e2]; exact hf
  have h2 := Sim7x00.arrive_ok p (n := n) (by rw [e1]; exact hrx) (by rw [e2]; exact htx) (by rw [e2]; exact hn) hI hm hf2.peer hf2.texts hf2.host h1 i hk hb
  rw [← exec_append] at h2
  obtain ⟨h3, h4, h5⟩ := Sim7x00.Stage.seen hk h2
  have h6 := h3.all
  exact ⟨h6.1.trans (by simp), h6.2, h4, h5⟩

/-- C44, SIM7x00: the connection lasts, whatever else the modem says that is not about the connection. -/
theorem C44_sim7x00_lasts (p : Platform) {rxm txm rmem wmem line ip id : List Byte} {ty : ConnType} {n : Nat}
    (hrx : 60 ≤ rxm.length) (htx : 20 ≤ txm.length) (hn : txm.length ≤ n) (hl : line.length = 61) (hip : ip.length = 16) (hid : 2 ≤ id.length)
    {ts : List (Trip (List Byte))}
    (hts : ∀ t ∈ ts, Fits7x00 txm.length t.access t.peer ∧ t.visit.Ok (open7x00 t.access t.peer) close7x00 stay7x00 (fun _ => True))
    {a : List Byte} {r : Peer} (hf : Fits7x00 txm.length a r) (i : Nat) {bs : List Beat}
    (hb : Dialogue (open7x00 a r) bs) {xs : List Spoken} (hxs : ∀ x ∈ xs, x.Is stay7x00) :
    let d := exec (Sim7x00.step p) (Sim7x00.init (Ser.init rxm txm []) rmem wmem ty line ip id)
      (.run true :: trips setup7x00 n ts ++ (setup7x00 a r ++ (dial i ++ ops n bs) ++ hearAll n xs))
    utter d.trace = (ts.flatMap fun t => visit7x00 t.access t.peer) ++ b!"ATE0\r\n" :: says (open7x00 a r) ∧ Whole d.trace ∧ d.isConnected = true := by
  intro d
  obtain ⟨c, x, y, _, e1, e2, hI, hm, h1⟩ := Sim7x00.trips_ok p ts (n := n) hrx htx hn ⟨rfl, rfl, rfl⟩ rfl (Sim7x00.init_ok (p := p) (rmem := rmem) (wmem := wmem) (ty := ty) (fun x => by simp [x] at htx) hl hip hid) hts
  rw [List.nil_append] at h1
  have hf2 : Fits7x00 c.tx a r := by rw [e2]; exact hf
  have h2 := Sim7x00.connect_ok p (n := n) (by rw [e1]; exact hrx) (by rw [e2]; exact htx) (by rw [e2]; exact hn) hI hm hf2.peer hf2.texts hf2.host h1 i hb hxs
  rw [← exec_append] at h2
  have h6 := h2.1.told.all
  exact ⟨h6.1.trans (by simp), h6.2, isConnected_of h2.1.cs⟩

/-- C45, SIM7x00: after any number of connections that were closed by `disconnect()` the driver is idle. -/
theorem C45_sim7x00 (p : Platform) {rxm txm rmem wmem line ip id : List Byte} {ty : ConnType} {n : Nat}
    (hrx : 60 ≤ rxm.length) (htx : 20 ≤ txm.length) (hn : txm.length ≤ n) (hl : line.length = 61) (hip : ip.length = 16) (hid : 2 ≤ id.length)
    {ts : List (Trip (List Byte))}
    (hts : ∀ t ∈ ts, Fits7x00 txm.length t.access t.peer ∧ t.visit.Ok (open7x00 t.access t.peer) close7x00 stay7x00 (fun _ => True)) :
    let d := exec (Sim7x00.step p) (Sim7x00.init (Ser.init rxm txm []) rmem wmem ty line ip id) (.run true :: trips setup7x00 n ts)
    utter d.trace = (ts.flatMap fun t => visit7x00 t.access t.peer) ∧ Whole d.trace ∧ d.isIdle = true := by
  intro d
  obtain ⟨c, x, y, _, e1, e2, hI, hm, h1⟩ := Sim7x00.trips_ok p ts (n := n) hrx htx hn ⟨rfl, rfl, rfl⟩ rfl (Sim7x00.init_ok (p := p) (rmem := rmem) (wmem := wmem) (ty := ty) (fun x => by simp [x] at htx) hl hip hid) hts
  rw [List.nil_append] at h1
  have h6 := h1.1.told.all
  exact ⟨h6.1, h6.2, isIdle_of h1.1.cs⟩

/-- C61, SIM7x00: the server closes the connection, and the driver reports it for ever, sending nothing. -/
theorem C61_sim7x00 (p : Platform) {rxm txm rmem wmem line ip id : List Byte} {ty : ConnType} {n : Nat}
    (hrx : 60 ≤ rxm.length) (htx : 20 ≤ txm.length) (hn : txm.length ≤ n) (hl : line.length = 61) (hip : ip.length = 16) (hid : 2 ≤ id.length)
    {ts : List (Trip (List Byte))}
    (hts : ∀ t ∈ ts, Fits7x00 txm.length t.access t.peer ∧ t.visit.Ok (open7x00 t.access t.peer) close7x00 stay7x00 (fun _ => True))
    {a : List Byte} {r : Peer} (hf : Fits7x00 txm.length a r) (i : Nat) {bs : List Beat}
    (hb : Dialogue (open7x00 a r) bs) {xs : List Spoken} (hxs : ∀ x ∈ xs, x.Is stay7x00)
    {x : Spoken} (hx : x.Is (b!"+IPCLOSE: 0," <+: ·)) :
    let d := exec (Sim7x00.step p) (Sim7x00.init (Ser.init rxm txm []) rmem wmem ty line ip id)
      (.run true :: trips setup7x00 n ts ++ (setup7x00 a r ++ (dial i ++ ops n bs) ++ hearAll n xs) ++ x.ops n)
    utter d.trace = (ts.flatMap fun t => visit7x00 t.access t.peer) ++ b!"ATE0\r\n" :: says (open7x00 a r) ∧ Whole d.trace ∧ d.isConnected = true := by
  intro d
  obtain ⟨c, x, y, _, e1, e2, hI, hm, h1⟩ := Sim7x00.trips_ok p ts (n := n) hrx htx hn ⟨rfl, rfl, rfl⟩ rfl (Sim7x00.init_ok (p := p) (rmem := rmem) (wmem := wmem) (ty := ty) (fun x => by simp [x] at htx) hl hip hid) hts
  rw [List.nil_append] at h1
  have hf2 : Fits7x00 c.tx a r := by rw [e2]; exact hf
  have h2 := Sim7x00.connect_ok p (n := n) (by rw [e1]; exact hrx) (by rw [e2]; exact htx) (by rw [e2]; exact hn) hI hm hf2.peer hf2.texts hf2.host h1 i hb hxs
  rw [← exec_append] at h2
  have h3 := Sim7x00.peer_close (n := n) (c := c.to r) p (by rw [e1]; exact hrx) (by rw [e2]; exact htx) (by rw [e2]; exact hn) hI hm h2 hx
  rw [← exec_append] at h3
  have h6 := h3.told.all
  exact ⟨h6.1.trans (by simp), h6.2, isConnected_of h3.cs⟩

/-! ### SIM800 -/

/-- C44, SIM800: after `connect()` and `k` answers of the modem the driver has sent the first `k + 1` commands of the
sequence, and reports a connection if these are all. -/
theorem C44_sim800 (p : Platform) {rxm txm rmem wmem line ip id : List Byte} {ty : ConnType} {n : Nat}
    (hrx : 60 ≤ rxm.length) (htx : 20 ≤ txm.length) (hn : txm.length ≤ n) (hl : line.length = 61) (hip : ip.length = 16) (hid : 2 ≤ id.length)
    {ts : List (Trip (List Byte))}
    (hts : ∀ t ∈ ts, Fits800 txm.length t.access t.peer ∧ t.visit.Ok (open800 t.access t.peer) close800 stay800 (Clear errors800))
    {a : List Byte} {r : Peer} (hf : Fits800 txm.length a r) (i : Nat) {k : Nat} (hk : k ≤ 9) {bs : List Beat}
    (hb : Dialogue ((open800 a r).take k) bs) :
    let d := exec (Sim800.step p) (Sim800.init (Ser.init rxm txm []) rmem wmem ty line ip id)
      (.run true :: trips setup7x00 n ts ++ (setup7x00 a r ++ (dial i ++ ops n bs)))
    utter d.trace = (ts.flatMap fun t => visit800 t.access t.peer) ++ b!"ATE0\r\n" :: says ((open800 a r).take k) ∧ Whole d.trace ∧
      d.isIdle = false ∧ d.isConnected = decide (k = 9) := by
  intro d
  obtain ⟨c, x, y, _, e1, e2, hI, hm, h1⟩ := Sim800.trips_ok p ts (n := n) hrx htx hn ⟨rfl, rfl, rfl⟩ rfl (Sim800.init_ok (p := p) (rmem := rmem) (wmem := wmem) (ty := ty) (fun x => by simp [x] at htx) hl hip hid) hts
  rw [List.nil_append] at h1
  have hf2 : Fits800 c.tx a r := by rw [e2]; exact hf
  have h2 := Sim800.arrive_ok p (n := n) (by rw [e1]; exact hrx) (by rw [e2]; exact htx) (by rw [e2]; exact hn) hI hm hf2.peer hf2.name hf2.texts hf2.host h1 i hk hb
  rw [← exec_append] at h2
  obtain ⟨h3, h4, h5⟩ := Sim800.Stage.seen hk h2
  have h6 := h3.all
  exact ⟨h6.1.trans (by simp), h6.2, h4, h5⟩

/-- C44, SIM800: the connection lasts, whatever else the modem says that is not about the connection. -/
theorem C44_sim800_lasts (p : Platform) {rxm txm rmem wmem line ip id : List Byte} {ty : ConnType} {n : Nat}
    (hrx : 60 ≤ rxm.length) (htx : 20 ≤ txm.length) (hn : txm.length ≤ n) (hl : line.length = 61) (hip : ip.length = 16) (hid : 2 ≤ id.length)
    {ts : List (Trip (List Byte))}
    (hts : ∀ t ∈ ts, Fits800 txm.length t.access t.peer ∧ t.visit.Ok (open800 t.access t.peer) close800 stay800 (Clear errors800))
    {a : List Byte} {r : Peer} (hf : Fits800 txm.length a r) (i : Nat) {bs : List Beat}
    (hb : Dialogue (open800 a r) bs) {xs : List Spoken} (hxs : ∀ x ∈ xs, x.Is stay800) :
    let d := exec (Sim800.step p) (Sim800.init (Ser.init rxm txm []) rmem wmem ty line ip id)
      (.run true :: trips setup7x00 n ts ++ (setup7x00 a r ++ (dial i ++ ops n bs) ++ hearAll n xs))
    utter d.trace = (ts.flatMap fun t => visit800 t.access t.peer) ++ b!"ATE0\r\n" :: says (open800 a r) ∧ Whole d.trace ∧ d.isConnected = true := by
  intro d
  obtain ⟨c, x, y, _, e1, e2, hI, hm, h1⟩ := Sim800.trips_ok p ts (n := n) hrx htx hn ⟨rfl, rfl, rfl⟩ rfl (Sim800.init_ok (p := p) (rmem := rmem) (wmem := wmem) (ty := ty) (fun x => by simp [x] at htx) hl hip hid) hts
  rw [List.nil_append] at h1
  have hf2 : Fits800 c.tx a r := by rw [e2]; exact hf
  have h2 := Sim800.connect_ok p (n := n) (by rw [e1]; exact hrx) (by rw [e2]; exact htx) (by rw [e2]; exact hn) hI hm hf2.peer hf2.name hf2.texts hf2.host h1 i hb hxs
  rw [← exec_append] at h2
  have h6 := h2.1.told.all
  exact ⟨h6.1.trans (by simp), h6.2, isConnected_of h2.1.cs⟩

/-- C45, SIM800: after any number of connections that were closed by `disconnect()` the driver is idle. -/
theorem C45_sim800 (p : Platform) {rxm txm rmem wmem line ip id : List Byte} {ty : ConnType} {n : Nat}
    (hrx : 60 ≤ rxm.length) (htx : 20 ≤ txm.length) (hn : txm.length ≤ n) (hl : line.length = 61) (hip : ip.length = 16) (hid : 2 ≤ id.length)
    {ts : List (Trip (List Byte))}
    (hts : ∀ t ∈ ts, Fits800 txm.length t.access t.peer ∧ t.visit.Ok (open800 t.access t.peer) close800 stay800 (Clear errors800)) :
    let d := exec (Sim800.step p) (Sim800.init (Ser.init rxm txm []) rmem wmem ty line ip id) (.run true :: trips setup7x00 n ts)
    utter d.trace = (ts.flatMap fun t => visit800 t.access t.peer) ∧ Whole d.trace ∧ d.isIdle = true := by
  intro d
  obtain ⟨c, x, y, _, e1, e2, hI, hm, h1⟩ := Sim800.trips_ok p ts (n := n) hrx htx hn ⟨rfl, rfl, rfl⟩ rfl (Sim800.init_ok (p := p) (rmem := rmem) (wmem := wmem) (ty := ty) (fun x => by simp [x] at htx) hl hip hid) hts
  rw [List.nil_append] at h1
  have h6 := h1.1.told.all
  exact ⟨h6.1, h6.2, isIdle_of h1.1.cs⟩

/-- C61, SIM800: the server closes the connection, and the driver becomes idle. -/
theorem C61_sim800 (p : Platform) {rxm txm rmem wmem line ip id : List Byte} {ty : ConnType} {n : Nat}
    (hrx : 60 ≤ rxm.length) (htx : 20 ≤ txm.length) (hn : txm.length ≤ n) (hl : line.length = 61) (hip : ip.length = 16) (hid : 2 ≤ id.length)
    {ts : List (Trip (List Byte))}
    (hts : ∀ t ∈ ts, Fits800 txm.length t.access t.peer ∧ t.visit.Ok (open800 t.access t.peer) close800 stay800 (Clear errors800))
    {a : List Byte} {r : Peer} (hf : Fits800 txm.length a r) (i : Nat) {bs : List Beat}
    (hb : Dialogue (open800 a r) bs) {xs : List Spoken} (hxs : ∀ x ∈ xs, x.Is stay800)
    {x : Spoken} (hx : x.Is (b!"0, CLOSED" <+: ·)) (hk : 0 < x.runs) {b : Beat}
    (hbb : Answers (await b!"SHUT OK" (b!"+CIPRXGET: 1,0" :: b!"0, CLOSED" :: errors800)) b) :
    let d := exec (Sim800.step p) (Sim800.init (Ser.init rxm txm []) rmem wmem ty line ip id)
      (.run true :: trips setup7x00 n ts ++ (setup7x00 a r ++ (dial i ++ ops n bs) ++ hearAll n xs) ++ (x.ops n ++ b.ops n))
    utter d.trace = (ts.flatMap fun t => visit800 t.access t.peer) ++ b!"ATE0\r\n" :: says (open800 a r) ++ [b!"AT+CIPSHUT\r\n"] ∧ Whole d.trace ∧ d.isIdle = true := by
  intro d
  obtain ⟨c, x, y, _, e1, e2, hI, hm, h1⟩ := Sim800.trips_ok p ts (n := n) hrx htx hn ⟨rfl, rfl, rfl⟩ rfl (Sim800.init_ok (p := p) (rmem := rmem) (wmem := wmem) (ty := ty) (fun x => by simp [x] at htx) hl hip hid) hts
  rw [List.nil_append] at h1
  have hf2 : Fits800 c.tx a r := by rw [e2]; exact hf
  have h2 := Sim800.connect_ok p (n := n) (by rw [e1]; exact hrx) (by rw [e2]; exact htx) (by rw [e2]; exact hn) hI hm hf2.peer hf2.name hf2.texts hf2.host h1 i hb hxs
  rw [← exec_append] at h2
  have h3 := Sim800.peer_close (n := n) (c := c.to r) p (by rw [e1]; exact hrx) (by rw [e2]; exact htx) (by rw [e2]; exact hn) hI hm h2 hx hk
  have h4 := Sim800.shut_ok (n := n) (c := c.to r) p (by rw [e1]; exact hrx) (by rw [e2]; exact htx) (by rw [e2]; exact hn) hI hm h3 hbb
  rw [← exec_append, ← exec_append] at h4
  have h6 := h4.1.told.all
  exact ⟨h6.1.trans (by simp), h6.2, isIdle_of h4.1.cs⟩

/-! ### Espressif -/

/-- C44, Espressif: after `connect()` and `k` answers of the modem the driver has sent the first `k + 1` commands of the
sequence, and reports a connection if these are all. -/
theorem C44_espressif (p : Platform) {rxm txm rmem wmem line mac : List Byte} {ty : ConnType} {n : Nat}
    (hrx : 60 ≤ rxm.length) (htx : 20 ≤ txm.length) (hn : txm.length ≤ n) (hl : line.length = 61) {ssid passwd : CPtr}
    (hmac : ¬ (p.charSigned = false ∧ mac.getD 1 0 = 255 ∧ mac.getD 0 0 = 0))
    {ts : List (Trip Wifi)}
    (hts : ∀ t ∈ ts, FitsEsp txm.length t.access t.peer ∧ t.visit.Ok (openEsp t.access t.peer) (closeEsp t.peer) (stayEsp t.peer) (restEsp t.peer))
    {a : Wifi} {r : Peer} (hf : FitsEsp txm.length a r) (i : Nat) {k : Nat} (hk : k ≤ 7) {bs : List Beat}
    (hb : Dialogue ((openEsp a r).take k) bs) :
    let d := exec (Espressif.step p) (Espressif.init (Ser.init rxm txm []) rmem wmem ty line mac ssid passwd)
      (.run true :: trips setupEsp n ts ++ (setupEsp a r ++ (dial i ++ ops n bs)))
    utter d.trace = (ts.flatMap fun t => visitEsp t.access t.peer) ++ b!"ATE0\r\n" :: says ((openEsp a r).take k) ∧ Whole d.trace ∧
      d.isIdle = false ∧ d.isConnected = decide (k = 7) := by
  intro d
  obtain ⟨c, x, _, e1, e2, hI, hm, h1⟩ := Espressif.trips_ok p ts (n := n) hrx htx hn ⟨rfl, rfl, rfl⟩ rfl (Espressif.init_ok (p := p) (rmem := rmem) (wmem := wmem) (ty := ty) (fun x => by simp [x] at htx) hl hmac) hts
  rw [List.nil_append] at h1
  have hf2 : FitsEsp c.tx a r := by rw [e2]; exact hf
  have h2 := Espressif.arrive_ok p (n := n) (by rw [e1]; exact hrx) (by rw [e2]; exact htx) (by rw [e2]; exact hn) hI hm hf2.peer hf2.wifi hf2.texts h1 i hk hb
  rw [← exec_append] at h2
  obtain ⟨h3, h4, h5⟩ := Espressif.Stage.seen hk h2
  have h6 := h3.all
  exact ⟨h6.1.trans (by simp), h6.2, h4, h5⟩

/-- C44, Espressif: the connection lasts, whatever else the modem says that is not about the connection. -/
theorem C44_espressif_lasts (p : Platform) {rxm txm rmem wmem line mac : List Byte} {ty : ConnType} {n : Nat}
    (hrx : 60 ≤ rxm.length) (htx : 20 ≤ txm.length) (hn : txm.length ≤ n) (hl : line.length = 61) {ssid passwd : CPtr}
    (hmac : ¬ (p.charSigned = false ∧ mac.getD 1 0 = 255 ∧ mac.getD 0 0 = 0))
    {ts : List (Trip Wifi)}
    (hts : ∀ t ∈ ts, FitsEsp txm.length t.access t.peer ∧ t.visit.Ok (openEsp t.access t.peer) (closeEsp t.peer) (stayEsp t.peer) (restEsp t.peer))
    {a : Wifi} {r : Peer} (hf : FitsEsp txm.length a r) (i : Nat) {bs : List Beat}
    (hb : Dialogue (openEsp a r) bs) {xs : List Spoken} (hxs : ∀ x ∈ xs, x.Is (stayEsp r)) :
    let d := exec (Espressif.step p) (Espressif.init (Ser.init rxm txm []) rmem wmem ty line mac ssid passwd)
      (.run true :: trips setupEsp n ts ++ (setupEsp a r ++ (dial i ++ ops n bs) ++ hearAll n xs))
    utter d.trace = (ts.flatMap fun t => visitEsp t.access t.peer) ++ b!"ATE0\r\n" :: says (openEsp a r) ∧ Whole d.trace ∧ d.isConnected = true := by
  intro d
  obtain ⟨c, x, _, e1, e2, hI, hm, h1⟩ := Espressif.trips_ok p ts (n := n) hrx htx hn ⟨rfl, rfl, rfl⟩ rfl (Espressif.init_ok (p := p) (rmem := rmem) (wmem := wmem) (ty := ty) (fun x => by simp [x] at htx) hl hmac) hts
  rw [List.nil_append] at h1
  have hf2 : FitsEsp c.tx a r := by rw [e2]; exact hf
  have h2 := Espressif.connect_ok p (n := n) (by rw [e1]; exact hrx) (by rw [e2]; exact htx) (by rw [e2]; exact hn) hI hm hf2.peer hf2.wifi hf2.texts h1 i hb hxs
  rw [← exec_append] at h2
  have h6 := h2.1.told.all
  exact ⟨h6.1.trans (by simp), h6.2, isConnected_of h2.1.cs⟩

/-- C45, Espressif: after any number of connections that were closed by `disconnect()` the driver is idle. -/
theorem C45_espressif (p : Platform) {rxm txm rmem wmem line mac : List Byte} {ty : ConnType} {n : Nat}
    (hrx : 60 ≤ rxm.length) (htx : 20 ≤ txm.length) (hn : txm.length ≤ n) (hl : line.length = 61) {ssid passwd : CPtr}
    (hmac : ¬ (p.charSigned = false ∧ mac.getD 1 0 = 255 ∧ mac.getD 0 0 = 0))
    {ts : List (Trip Wifi)}
    (hts : ∀ t ∈ ts, FitsEsp txm.length t.access t.peer ∧ t.visit.Ok (openEsp t.access t.peer) (closeEsp t.peer) (stayEsp t.peer) (restEsp t.peer)) :
    let d := exec (Espressif.step p) (Espressif.init (Ser.init rxm txm []) rmem wmem ty line mac ssid passwd) (.run true :: trips setupEsp n ts)
    utter d.trace = (ts.flatMap fun t => visitEsp t.access t.peer) ∧ Whole d.trace ∧ d.isIdle = true := by
  intro d
  obtain ⟨c, x, _, e1, e2, hI, hm, h1⟩ := Espressif.trips_ok p ts (n := n) hrx htx hn ⟨rfl, rfl, rfl⟩ rfl (Espressif.init_ok (p := p) (rmem := rmem) (wmem := wmem) (ty := ty) (fun x => by simp [x] at htx) hl hmac) hts
  rw [List.nil_append] at h1
  have h6 := h1.1.told.all
  exact ⟨h6.1, h6.2, isIdle_of h1.1.cs⟩

/-- C61, Espressif: the server closes the connection, and the driver becomes idle. -/
theorem C61_espressif (p : Platform) {rxm txm rmem wmem line mac : List Byte} {ty : ConnType} {n : Nat}
    (hrx : 60 ≤ rxm.length) (htx : 20 ≤ txm.length) (hn : txm.length ≤ n) (hl : line.length = 61) {ssid passwd : CPtr}
    (hmac : ¬ (p.charSigned = false ∧ mac.getD 1 0 = 255 ∧ mac.getD 0 0 = 0))
    {ts : List (Trip Wifi)}
    (hts : ∀ t ∈ ts, FitsEsp txm.length t.access t.peer ∧ t.visit.Ok (openEsp t.access t.peer) (closeEsp t.peer) (stayEsp t.peer) (restEsp t.peer))
    {a : Wifi} {r : Peer} (hf : FitsEsp txm.length a r) (i : Nat) {bs : List Beat}
    (hb : Dialogue (openEsp a r) bs) {xs : List Spoken} (hxs : ∀ x ∈ xs, x.Is (stayEsp r))
    {x : Spoken} (hx : x.Is fun l => b!"CLOSED" <+: l ∧ Spec.plain r.typ l) (hk : 0 < x.runs) {b : Beat}
    (hbb : Answers (awaitPlain r.typ b!"WIFI DISCONNECT" (b!"+IPD" :: errorsEsp)) b) :
    let d := exec (Espressif.step p) (Espressif.init (Ser.init rxm txm []) rmem wmem ty line mac ssid passwd)
      (.run true :: trips setupEsp n ts ++ (setupEsp a r ++ (dial i ++ ops n bs) ++ hearAll n xs) ++ (x.ops n ++ b.ops n))
    utter d.trace = (ts.flatMap fun t => visitEsp t.access t.peer) ++ b!"ATE0\r\n" :: says (openEsp a r) ++ [b!"AT+CWQAP\r\n"] ∧ Whole d.trace ∧ d.isIdle = true := by
  intro d
  obtain ⟨c, x, _, e1, e2, hI, hm, h1⟩ := Espressif.trips_ok p ts (n := n) hrx htx hn ⟨rfl, rfl, rfl⟩ rfl (Espressif.init_ok (p := p) (rmem := rmem) (wmem := wmem) (ty := ty) (fun x => by simp [x] at htx) hl hmac) hts
  rw [List.nil_append] at h1
  have hf2 : FitsEsp c.tx a r := by rw [e2]; exact hf
  have h2 := Espressif.connect_ok p (n := n) (by rw [e1]; exact hrx) (by rw [e2]; exact htx) (by rw [e2]; exact hn) hI hm hf2.peer hf2.wifi hf2.texts h1 i hb hxs
  rw [← exec_append] at h2
  have h3 := Espressif.peer_close (n := n) (c := c.to r) p (by rw [e1]; exact hrx) (by rw [e2]; exact htx) (by rw [e2]; exact hn) hI hm h2 hx hk
  have h4 := Espressif.quit_ok (n := n) (c := c.to r) p (by rw [e1]; exact hrx) (by rw [e2]; exact htx) (by rw [e2]; exact hn) hI hm rfl h3 hbb
  rw [← exec_append, ← exec_append] at h4
  have h6 := h4.1.told.all
  exact ⟨h6.1.trans (by simp), h6.2, isIdle_of h4.1.cs⟩

/-! ### CC1352P7 -/

/-- C44, CC1352P7: after `connect()` and `k` answers of the modem the driver has sent the first `k + 1` commands of the
sequence, and reports a connection if these are all. -/
theorem C44_cc1352p7 (p : Platform) {rxm txm rmem wmem line mac : List Byte} {ty : ConnType} {n : Nat}
    (hrx : 60 ≤ rxm.length) (htx : 20 ≤ txm.length) (hn : txm.length ≤ n) (hl : line.length = 61) 
    (hmac : ¬ (p.charSigned = false ∧ mac.getD 1 0 = 255 ∧ mac.getD 0 0 = 0))
    {ts : List (Trip Unit)}
    (hts : ∀ t ∈ ts, FitsCC txm.length t.peer ∧ t.visit.Ok (openCC t.peer) closeCC stayCC (Clear [b!"ERROR"]))
    {r : Peer} (hf : FitsCC txm.length r) (i : Nat) {k : Nat} (hk : k ≤ 2) {bs : List Beat}
    (hb : Dialogue ((openCC r).take k) bs) :
    let d := exec (CC1352P7.step p) (CC1352P7.init (Ser.init rxm txm []) rmem wmem ty line mac)
      (.run true :: trips (fun _ => setupCC) n ts ++ (setupCC r ++ (dial i ++ ops n bs)))
    utter d.trace = (ts.flatMap fun t => visitCC t.peer) ++ b!"ATE0\r\n" :: says ((openCC r).take k) ∧ Whole d.trace ∧
      d.isIdle = false ∧ d.isConnected = decide (k = 2) := by
  intro d
  obtain ⟨c, _, e1, e2, hI, hm, h1⟩ := CC1352P7.trips_ok p ts (n := n) hrx htx hn ⟨rfl, rfl, rfl⟩ rfl (CC1352P7.init_ok (p := p) (rmem := rmem) (wmem := wmem) (ty := ty) (fun x => by simp [x] at htx) hl hmac) hts
  rw [List.nil_append] at h1
  have hf2 : FitsCC c.tx r := by rw [e2]; exact hf
  have h2 := CC1352P7.arrive_ok p (n := n) (by rw [e1]; exact hrx) (by rw [e2]; exact htx) (by rw [e2]; exact hn) hI hm hf2.peer hf2.texts h1 i hk hb
  rw [← exec_append] at h2
  obtain ⟨h3, h4, h5⟩ := CC1352P7.Stage.seen hk h2
  have h6 := h3.all
  exact ⟨h6.1.trans (by simp), h6.2, h4, h5⟩

/-- C44, CC1352P7: the connection lasts, whatever else the modem says that is not about the connection. -/
theorem C44_cc1352p7_lasts (p : Platform) {rxm txm rmem wmem line mac : List Byte} {ty : ConnType} {n : Nat}
    (hrx : 60 ≤ rxm.length) (htx : 20 ≤ txm.length) (hn : txm.length ≤ n) (hl : line.length = 61) 
    (hmac : ¬ (p.charSigned = false ∧ mac.getD 1 0 = 255 ∧ mac.getD 0 0 = 0))
    {ts : List (Trip Unit)}
    (hts : ∀ t ∈ ts, FitsCC txm.length t.peer ∧ t.visit.Ok (openCC t.peer) closeCC stayCC (Clear [b!"ERROR"]))
    {r : Peer} (hf : FitsCC txm.length r) (i : Nat) {bs : List Beat}
    (hb : Dialogue (openCC r) bs) {xs : List Spoken} (hxs : ∀ x ∈ xs, x.Is stayCC) :
    let d := exec (CC1352P7.step p) (CC1352P7.init (Ser.init rxm txm []) rmem wmem ty line mac)
      (.run true :: trips (fun _ => setupCC) n ts ++ (setupCC r ++ (dial i ++ ops n bs) ++ hearAll n xs))
    utter d.trace = (ts.flatMap fun t => visitCC t.peer) ++ b!"ATE0\r\n" :: says (openCC r) ∧ Whole d.trace ∧ d.isConnected = true := by
  intro d
  obtain ⟨c, _, e1, e2, hI, hm, h1⟩ := CC1352P7.trips_ok p ts (n := n) hrx htx hn ⟨rfl, rfl, rfl⟩ rfl (CC1352P7.init_ok (p := p) (rmem := rmem) (wmem := wmem) (ty := ty) (fun x => by simp [x] at htx) hl hmac) hts
  rw [List.nil_append] at h1
  have hf2 : FitsCC c.tx r := by rw [e2]; exact hf
  have h2 := CC1352P7.connect_ok p (n := n) (by rw [e1]; exact hrx) (by rw [e2]; exact htx) (by rw [e2]; exact hn) hI hm hf2.peer hf2.texts h1 i hb hxs
  rw [← exec_append] at h2
  have h6 := h2.1.told.all
  exact ⟨h6.1.trans (by simp), h6.2, isConnected_of h2.1.cs⟩

/-- C45, CC1352P7: after any number of connections that were closed by `disconnect()` the driver is idle. -/
theorem C45_cc1352p7 (p : Platform) {rxm txm rmem wmem line mac : List Byte} {ty : ConnType} {n : Nat}
    (hrx : 60 ≤ rxm.length) (htx : 20 ≤ txm.length) (hn : txm.length ≤ n) (hl : line.length = 61) 
    (hmac : ¬ (p.charSigned = false ∧ mac.getD 1 0 = 255 ∧ mac.getD 0 0 = 0))
    {ts : List (Trip Unit)}
    (hts : ∀ t ∈ ts, FitsCC txm.length t.peer ∧ t.visit.Ok (openCC t.peer) closeCC stayCC (Clear [b!"ERROR"])) :
    let d := exec (CC1352P7.step p) (CC1352P7.init (Ser.init rxm txm []) rmem wmem ty line mac) (.run true :: trips (fun _ => setupCC) n ts)
    utter d.trace = (ts.flatMap fun t => visitCC t.peer) ∧ Whole d.trace ∧ d.isIdle = true := by
  intro d
  obtain ⟨c, _, e1, e2, hI, hm, h1⟩ := CC1352P7.trips_ok p ts (n := n) hrx htx hn ⟨rfl, rfl, rfl⟩ rfl (CC1352P7.init_ok (p := p) (rmem := rmem) (wmem := wmem) (ty := ty) (fun x => by simp [x] at htx) hl hmac) hts
  rw [List.nil_append] at h1
  have h6 := h1.1.told.all
  exact ⟨h6.1, h6.2, isIdle_of h1.1.cs⟩

/-- C61, CC1352P7: the server closes the connection, and the driver becomes idle. -/
theorem C61_cc1352p7 (p : Platform) {rxm txm rmem wmem line mac : List Byte} {ty : ConnType} {n : Nat}
    (hrx : 60 ≤ rxm.length) (htx : 20 ≤ txm.length) (hn : txm.length ≤ n) (hl : line.length = 61) 
    (hmac : ¬ (p.charSigned = false ∧ mac.getD 1 0 = 255 ∧ mac.getD 0 0 = 0))
    {ts : List (Trip Unit)}
    (hts : ∀ t ∈ ts, FitsCC txm.length t.peer ∧ t.visit.Ok (openCC t.peer) closeCC stayCC (Clear [b!"ERROR"]))
    {r : Peer} (hf : FitsCC txm.length r) (i : Nat) {bs : List Beat}
    (hb : Dialogue (openCC r) bs) {xs : List Spoken} (hxs : ∀ x ∈ xs, x.Is stayCC)
    {x : Spoken} (hx : x.Is (b!"CLOSED" <+: ·)) (hk : 0 < x.runs) :
    let d := exec (CC1352P7.step p) (CC1352P7.init (Ser.init rxm txm []) rmem wmem ty line mac)
      (.run true :: trips (fun _ => setupCC) n ts ++ (setupCC r ++ (dial i ++ ops n bs) ++ hearAll n xs) ++ (x.ops n))
    utter d.trace = (ts.flatMap fun t => visitCC t.peer) ++ b!"ATE0\r\n" :: says (openCC r) ∧ Whole d.trace ∧ d.isIdle = true := by
  intro d
  obtain ⟨c, _, e1, e2, hI, hm, h1⟩ := CC1352P7.trips_ok p ts (n := n) hrx htx hn ⟨rfl, rfl, rfl⟩ rfl (CC1352P7.init_ok (p := p) (rmem := rmem) (wmem := wmem) (ty := ty) (fun x => by simp [x] at htx) hl hmac) hts
  rw [List.nil_append] at h1
  have hf2 : FitsCC c.tx r := by rw [e2]; exact hf
  have h2 := CC1352P7.connect_ok p (n := n) (by rw [e1]; exact hrx) (by rw [e2]; exact htx) (by rw [e2]; exact hn) hI hm hf2.peer hf2.texts h1 i hb hxs
  rw [← exec_append] at h2
  have h3 := CC1352P7.peer_close (n := n) (c := c.to r) p (by rw [e1]; exact hrx) (by rw [e2]; exact htx) (by rw [e2]; exact hn) hI hm h2 hx hk
  rw [← exec_append] at h3
  have h6 := h3.1.told.all
  exact ⟨h6.1.trans (by simp), h6.2, isIdle_of h3.1.cs⟩

/-! ### Examples

Two connections, with other lines between the answers. -/

theorem line_of {t : List Byte} (h : t.length < 60 ∧ nl ∉ t ∧ gt ∉ t ∧ (0 : Byte) ∉ t) : IsLine (t ++ [nl]) :=
  ⟨by simp; omega, t, rfl, h.2⟩

theorem beat_of {a : Await} {t : List Byte} {k : Nat} (h : t.length < 60 ∧ nl ∉ t ∧ gt ∉ t ∧ (0 : Byte) ∉ t) (hg : a.good (t ++ [nl])) :
    Answers a ⟨[], [], t ++ [nl], k⟩ := ⟨⟨by simp, line_of h, hg⟩, by simp⟩

/-- The line "RING" comes in two pieces, with calls of `run()` between them. -/
def ringing (k : Nat) : Spoken := ⟨[(b!"RI", 2)], b!"NG\r" ++ [nl], k⟩

theorem ringing_is {ok : List Byte → Prop} (k : Nat) (h : ok (b!"RING\r" ++ [nl])) : (ringing k).Is ok :=
  ⟨by simp [ringing], line_of (t := b!"RING\r") (by decide), h⟩

/-- The line "RING" comes before the answer. -/
theorem beat_ring {a : Await} {t : List Byte} {k : Nat} (h : t.length < 60 ∧ nl ∉ t ∧ gt ∉ t ∧ (0 : Byte) ∉ t) (hg : a.good (t ++ [nl]))
    (hi : a.idle (b!"RING\r" ++ [nl])) : Answers a ⟨[ringing 3], [], t ++ [nl], k⟩ :=
  ⟨⟨by simp, line_of h, hg⟩, by simp only [List.mem_singleton]; rintro x rfl; exact ringing_is 3 hi⟩

def server : Peer := ⟨b!"example.org", b!"93.184.216.34", 1883, .tcp⟩
def other : Peer := ⟨b!"a.b", b!"10.0.0.1", 53, .udp⟩

theorem server_ok : server.Ok := ⟨by decide, by decide, by decide, by decide⟩
theorem other_ok : other.Ok := ⟨by decide, by decide, by decide, by decide⟩

def okBeat : Beat := ⟨[ringing 3], [], b!"OK\r" ++ [nl], 1⟩

def trip7x00 (q : Peer) : Trip (List Byte) :=
  ⟨b!"internet", q, {
    dial := 2
    up := [okBeat, okBeat, okBeat, okBeat, ⟨[], [], b!"+NETOPEN: 0\r" ++ [nl], 0⟩, okBeat, ⟨[], [], b!"+CDNSGIP: 1,\"x\",\"" ++ q.addr ++ b!"\"\r" ++ [nl], 0⟩,
      okBeat, ⟨[ringing 3], [], b!"+CIPOPEN: 0,0\r" ++ [nl], 5⟩]
    stay := [ringing 3]
    hangUp := 0
    down := [⟨[ringing 3], [], b!"+NETCLOSE: 0\r" ++ [nl], 0⟩]
    rest := [ringing 1] }⟩

theorem okBeat_ok {bad : List (List Byte)} (h : Spec.Clear (b!"OK" :: bad) (b!"RING\r" ++ [nl])) : Answers (await b!"OK" bad) okBeat :=
  beat_ring (by decide) (by show b!"OK" <+: _; decide) h

theorem ring {idle : List Byte → Prop} (k : Nat) (h : idle (b!"RING\r" ++ [nl])) :
    ∀ x ∈ [ringing k], x.Is idle := by
  simp only [List.mem_singleton]; rintro x rfl; exact ringing_is k h

theorem trips7x00 : ∀ t ∈ [trip7x00 server, trip7x00 other], Fits7x00 80 t.access t.peer ∧
    t.visit.Ok (open7x00 t.access t.peer) close7x00 stay7x00 (fun _ => True) := by
  have h : ∀ q ∈ [server, other], Fits7x00 80 b!"internet" q ∧
      (trip7x00 q).visit.Ok (open7x00 b!"internet" q) close7x00 stay7x00 (fun _ => True) := by
    intro q hq
    refine ⟨⟨?_, ?_, ?_⟩, ⟨?_, ring _ (by unfold stay7x00 Spec.Clear; decide), ?_, ring (idle := fun _ => True) _ trivial⟩⟩
    · simp only [List.mem_cons, List.not_mem_nil, or_false] at hq; rcases hq with rfl | rfl <;> first | exact server_ok | exact other_ok
    · simp only [List.mem_cons, List.not_mem_nil, or_false] at hq
      rcases hq with rfl | rfl <;> simp [visit7x00, says, open7x00, close7x00, cipopen, server, other, decimals]
    · simp only [List.mem_cons, List.not_mem_nil, or_false] at hq; rcases hq with rfl | rfl <;> decide
    · have hd : IsLine (b!"+CDNSGIP: 1,\"x\",\"" ++ q.addr ++ b!"\"\r" ++ [nl]) ∧ (34 : Byte) ∉ q.addr := by
        simp only [List.mem_cons, List.not_mem_nil, or_false] at hq
        rcases hq with rfl | rfl <;> exact ⟨line_of (by decide), by decide⟩
      refine .cons (okBeat_ok (by unfold Spec.Clear; decide)) <| .cons (okBeat_ok (by unfold Spec.Clear; decide)) <|
        .cons (okBeat_ok (by unfold Spec.Clear; decide)) <| .cons (okBeat_ok (by unfold Spec.Clear; decide)) <|
        .cons (beat_of (by decide) (by show b!"+NETOPEN: 0" <+: _; decide)) <| .cons (okBeat_ok (by unfold Spec.Clear; decide)) <|
        .cons ⟨⟨by simp, hd.1, b!"x", b!"\r\n", by simp [nl, Spoken.text], by decide, hd.2, by decide⟩, by simp⟩ <| .cons (okBeat_ok (by unfold Spec.Clear; decide)) <|
        .cons (beat_ring (by decide) (by show b!"+CIPOPEN: 0,0" <+: _; decide) (by show Spec.Clear _ _; unfold Spec.Clear; decide)) .nil
    · exact .cons (beat_ring (by decide) (by show b!"+NETCLOSE: 0" <+: _; decide) (by show Spec.Clear _ _; unfold Spec.Clear; decide)) .nil
  intro t ht
  simp only [List.mem_cons, List.not_mem_nil, or_false] at ht
  rcases ht with rfl | rfl
  · exact h server (by simp)
  · exact h other (by simp)

def trip800 (q : Peer) : Trip (List Byte) :=
  ⟨b!"internet", q, {
    dial := 2
    up := [okBeat, okBeat, okBeat, okBeat, okBeat, ⟨[ringing 3], [], b!"10.0.0.7\r" ++ [nl], 0⟩,
      ⟨[ringing 3], [], b!"+CDNSGIP: 1,\"x\",\"" ++ q.addr ++ b!"\"\r" ++ [nl], 0⟩,
      okBeat, ⟨[ringing 3], [], b!"0, CONNECT OK\r" ++ [nl], 5⟩]
    stay := [ringing 3]
    hangUp := 0
    down := [⟨[ringing 3], [], b!"0, CLOSE OK\r" ++ [nl], 0⟩, ⟨[], [], b!"SHUT OK\r" ++ [nl], 2⟩]
    rest := [ringing 1] }⟩

theorem trips800 : ∀ t ∈ [trip800 server, trip800 other], Fits800 80 t.access t.peer ∧
    t.visit.Ok (open800 t.access t.peer) close800 stay800 (Spec.Clear errors800) := by
  have h : ∀ q ∈ [server, other], Fits800 80 b!"internet" q ∧
      (trip800 q).visit.Ok (open800 b!"internet" q) close800 stay800 (Spec.Clear errors800) := by
    intro q hq
    refine ⟨⟨?_, by decide, ?_, ?_⟩, ⟨?_, ring _ (by unfold stay800 Spec.Clear; decide), ?_, ring _ (by unfold Spec.Clear; decide)⟩⟩
    · simp only [List.mem_cons, List.not_mem_nil, or_false] at hq; rcases hq with rfl | rfl <;> first | exact server_ok | exact other_ok
    · simp only [List.mem_cons, List.not_mem_nil, or_false] at hq
      rcases hq with rfl | rfl <;> simp [visit800, says, open800, close800, cipstart800, server, other, decimals]
    · simp only [List.mem_cons, List.not_mem_nil, or_false] at hq; rcases hq with rfl | rfl <;> decide
    · have hd : IsLine (b!"+CDNSGIP: 1,\"x\",\"" ++ q.addr ++ b!"\"\r" ++ [nl]) ∧ (34 : Byte) ∉ q.addr := by
        simp only [List.mem_cons, List.not_mem_nil, or_false] at hq
        rcases hq with rfl | rfl <;> exact ⟨line_of (by decide), by decide⟩
      have hc {bad : List (List Byte)} (h : ∀ w ∈ bad, ¬ w <+: (b!"RING\r" ++ [nl])) : Spec.Clear bad (b!"RING\r" ++ [nl]) := h
      refine .cons (okBeat_ok (hc (by decide))) <| .cons (okBeat_ok (hc (by decide))) <|
        .cons (okBeat_ok (hc (by decide))) <| .cons (okBeat_ok (hc (by decide))) <| .cons (okBeat_ok (hc (by decide))) <|
        .cons (beat_ring (by decide) ⟨by unfold dots; decide, by unfold Spec.Clear; decide⟩ ⟨by unfold dots; decide, hc (by decide)⟩) <|
        .cons ⟨⟨by simp, hd.1, b!"x", b!"\r\n", by simp [nl, Spoken.text], by decide, hd.2, by decide⟩, ring _ (hc (by decide))⟩ <| .cons (okBeat_ok (hc (by decide))) <|
        .cons (beat_ring (by decide) (by show b!"0, CONNECT OK" <+: _; decide) (hc (by decide))) .nil
    · exact .cons (beat_ring (by decide) (by show b!"0, CLOSE OK" <+: _; decide) (by show Spec.Clear _ _; unfold Spec.Clear; decide)) <|
        .cons (beat_of (by decide) (by show b!"SHUT OK" <+: _; decide)) .nil
  intro t ht
  simp only [List.mem_cons, List.not_mem_nil, or_false] at ht
  rcases ht with rfl | rfl
  · exact h server (by simp)
  · exact h other (by simp)

def home : Wifi := ⟨b!"home net", b!"secret"⟩

def tripEsp (q : Peer) : Trip Wifi :=
  ⟨home, q, {
    dial := 2
    up := [okBeat, okBeat, okBeat, okBeat, okBeat, okBeat, okBeat]
    stay := [ringing 3]
    hangUp := 0
    down := [okBeat, ⟨[⟨[], b!"CLOSED\r" ++ [nl], 3⟩], [], b!"WIFI DISCONNECT\r" ++ [nl], 2⟩]
    rest := [ringing 1] }⟩

theorem tripsEsp : ∀ t ∈ [tripEsp server, tripEsp other], FitsEsp 80 t.access t.peer ∧
    t.visit.Ok (openEsp t.access t.peer) (closeEsp t.peer) (stayEsp t.peer) (restEsp t.peer) := by
  have h : ∀ q ∈ [server, other], FitsEsp 80 home q ∧
      (tripEsp q).visit.Ok (openEsp home q) (closeEsp q) (stayEsp q) (restEsp q) := by
    intro q hq
    have hp : Spec.plain q.typ (b!"RING\r" ++ [nl]) := .inr (by decide)
    have hb {bad : List (List Byte)} (h : ∀ w ∈ b!"OK" :: bad, ¬ w <+: (b!"RING\r" ++ [nl])) : Answers (awaitPlain q.typ b!"OK" bad) okBeat :=
      beat_ring (by decide) ⟨by decide, .inr (by decide)⟩ ⟨h, hp⟩
    refine ⟨⟨?_, ⟨by decide, by decide, by decide⟩, ?_⟩, ⟨?_, ring _ ⟨?_, hp⟩, ?_, ring _ ⟨?_, hp⟩⟩⟩
    · simp only [List.mem_cons, List.not_mem_nil, or_false] at hq; rcases hq with rfl | rfl <;> first | exact server_ok | exact other_ok
    · simp only [List.mem_cons, List.not_mem_nil, or_false] at hq
      rcases hq with rfl | rfl <;> simp [visitEsp, says, openEsp, closeEsp, protocol, recvmode, home, server, other, decimals]
    · exact .cons (hb (by decide)) <| .cons (hb (by decide)) <| .cons (hb (by decide)) <| .cons (hb (by decide)) <|
        .cons (hb (by decide)) <| .cons (hb (by decide)) <| .cons (hb (by decide)) .nil
    · unfold Spec.Clear; decide
    · refine .cons (hb (by decide)) <| .cons ⟨⟨by simp, line_of (by decide), by decide, .inr (by decide)⟩, ?_⟩ .nil
      simp only [List.mem_singleton]; rintro x rfl; exact ⟨by simp, line_of (by decide), by unfold Spec.Clear; decide, .inr (by decide)⟩
    · unfold Spec.Clear; decide
  intro t ht
  simp only [List.mem_cons, List.not_mem_nil, or_false] at ht
  rcases ht with rfl | rfl
  · exact h server (by simp)
  · exact h other (by simp)

def tripCC (q : Peer) : Trip Unit :=
  ⟨(), q, {
    dial := 2
    up := [okBeat, okBeat]
    stay := [ringing 3]
    hangUp := 0
    down := [⟨[⟨[], b!"CLOSED\r" ++ [nl], 3⟩], [], b!"OK\r" ++ [nl], 2⟩]
    rest := [ringing 1] }⟩

theorem tripsCC : ∀ t ∈ [tripCC server, tripCC other], FitsCC 80 t.peer ∧
    t.visit.Ok (openCC t.peer) closeCC stayCC (Spec.Clear [b!"ERROR"]) := by
  have h : ∀ q ∈ [server, other], FitsCC 80 q ∧ (tripCC q).visit.Ok (openCC q) closeCC stayCC (Spec.Clear [b!"ERROR"]) := by
    intro q hq
    refine ⟨⟨?_, ?_⟩, ⟨?_, ring _ (by unfold stayCC Spec.Clear; decide), ?_, ring _ (by unfold Spec.Clear; decide)⟩⟩
    · simp only [List.mem_cons, List.not_mem_nil, or_false] at hq; rcases hq with rfl | rfl <;> first | exact server_ok | exact other_ok
    · simp only [List.mem_cons, List.not_mem_nil, or_false] at hq
      rcases hq with rfl | rfl <;> simp [visitCC, says, openCC, closeCC, server, other, decimals]
    · exact .cons (okBeat_ok (by unfold Spec.Clear; decide)) <| .cons (okBeat_ok (by unfold Spec.Clear; decide)) .nil
    · refine .cons ⟨⟨by simp, line_of (by decide), by show b!"OK" <+: _; decide⟩, ?_⟩ .nil
      simp only [List.mem_singleton]; rintro x rfl; exact ⟨by simp, line_of (by decide), by show Spec.Clear _ _; unfold Spec.Clear; decide⟩
  intro t ht
  simp only [List.mem_cons, List.not_mem_nil, or_false] at ht
  rcases ht with rfl | rfl
  · exact h server (by simp)
  · exact h other (by simp)

/-- Lines for C61. The first one comes in two pieces. -/
example : (⟨[(b!"+IPCL", 2), (b!"", 1)], b!"OSE: 0,1\r\n", 0⟩ : Spoken).Is (b!"+IPCLOSE: 0," <+: ·) ∧
    (⟨[], b!"0, CLOSED\r\n", 1⟩ : Spoken).Is (b!"0, CLOSED" <+: ·) ∧
    (⟨[], b!"CLOSED\r\n", 1⟩ : Spoken).Is (fun l => b!"CLOSED" <+: l ∧ Spec.plain .udp l) ∧
    Answers (await b!"SHUT OK" (b!"+CIPRXGET: 1,0" :: b!"0, CLOSED" :: errors800)) ⟨[], [], b!"SHUT OK\r\n", 0⟩ :=
  ⟨⟨by simp, line_of (t := b!"+IPCLOSE: 0,1\r") (by decide), by decide⟩, ⟨by simp, line_of (t := b!"0, CLOSED\r") (by decide), by decide⟩,
    ⟨by simp, line_of (t := b!"CLOSED\r") (by decide), by decide, .inr (by decide)⟩,
    beat_of (t := b!"SHUT OK\r") (by decide) (by show b!"SHUT OK" <+: _; decide)⟩

end Verif.Props.Handshake
