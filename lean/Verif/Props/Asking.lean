import Verif.Lemmas.Tours
import Verif.Props.Handshake
import Verif.Spec.Sessions

/-!
# C69: questions to the modem are answered

The environment is that of `Verif.Spec.Chat` and `Verif.Spec.Asking`: any number of connections one after the other, with
any number of questions (`requestRSSI()`, `requestIDString()`, `requestMac()`) before and during each of them; the modem
answers each question with a line that carries the value and with OK, possibly with other lines between them; lines arrive
in pieces, with any number of calls of `run()` between them. Then a question is asked:

* the next `run()` passes the question on to the modem, and nothing else is sent;
* until the answer comes the application gets no value, in particular no old one;
* after the answer the application gets the value the modem has sent;
* the driver is as idle or as connected as before.
-/

namespace Verif.Props.Asking

open Verif Dev Spec

/-! ### SIM7x00 -/

/-- C69, SIM7x00, a question outside of a connection. -/
theorem C69_sim7x00 (p : Platform) {rxm txm rmem wmem line ip id : List Byte} {ty : ConnType} {n : Nat}
    (hrx : 60 ≤ rxm.length) (htx : 20 ≤ txm.length) (hn : txm.length ≤ n) (hl : line.length = 61) (hip : ip.length = 16) (hid : id.length = 24)
    {ts : List (Tour (List Byte) SimQ)} (hts : ∀ t ∈ ts, Tour7x00 txm.length t)
    {is : List (Query SimQ)} (his : Asks SimQ.Fine (ask7x00 []) is) {i : Query SimQ} (hi : SimQ.Fine i.what ∧ Dialogue (ask7x00 [] i.what) i.beats) :
    let D := exec (Sim7x00.step p) (Sim7x00.init (Ser.init rxm txm []) rmem wmem ty line ip id) (.run true :: tours setup7x00 SimQ.op n ts ++ inquiry SimQ.op n is)
    let e := exec (Sim7x00.step p) D (i.what.op :: List.replicate (i.runs + 1) (.run true))
    let d := exec (Sim7x00.step p) D (i.ops SimQ.op n)
    i.what.Pending e ∧ i.what.Answered d ∧ d.isIdle = true ∧ Whole d.trace ∧ utter e.trace = utter d.trace ∧
      utter d.trace = ts.flatMap (Tour.says hello7x00 bye7x00 (SimQ.say b!"AT+CICCID")) ++ is.map (fun j => j.what.say b!"AT+CICCID") ++ [i.what.say b!"AT+CICCID"] := by
  intro D e d
  have v0 := Sim7x00.step_inv p (.run true) (Sim7x00.inv_init rxm txm [] rmem wmem ty ip id hl)
  have h0 : Sim7x00.Here false (.start rxm.length txm.length wmem.length rmem.length ty) none none [] []
      (Sim7x00.step p (Sim7x00.init (Ser.init rxm txm []) rmem wmem ty line ip id) (.run true)) :=
    ⟨Sim7x00.init_ok (p := p) (rmem := rmem) (wmem := wmem) (ty := ty) (fun x => by simp [x] at htx) hl hip (by omega),
      Sim7x00.idLen_exec p (Sim7x00.inv_init rxm txm [] rmem wmem ty ip id hl) (by show (Mem.store _ _ _).cells.length = 24; simp [Mem.store, hid]) [.run true]⟩
  obtain ⟨c, a0, a1, _, e1, e2, hI, hm, h1⟩ := Sim7x00.tours_ok p ts (n := n) hrx htx hn ⟨rfl, rfl, rfl⟩ rfl v0 h0 hts
  rw [List.nil_append] at h1
  have hr : 60 ≤ c.rx := by rw [e1]; exact hrx
  have ht : 20 ≤ c.tx := by rw [e2]; exact htx
  have hx : c.tx ≤ n := by rw [e2]; exact hn
  have h3 := Sim7x00.inquiry_ok (on := false) (is := is) (n := n) p hr ht hx hI hm his h1
  rw [← exec_append] at h3
  have h5 := Sim7x00.ask_sent p ht i.what hi.1 h3 i.runs
  obtain ⟨h6, h7⟩ := Sim7x00.query_ok (on := false) (n := n) p hr ht hx hI hm hi.1 hi.2 h3
  have hq : i.what.Pending e := Sim7x00.pending h5
  have k5 := h5.1.told.all
  have k6 := h6.1.1.told.all
  exact ⟨hq, h6.answered h7, isIdle_of h6.1.1.cs, k6.2, k5.1.trans k6.1.symm, k6.1⟩

/-- C69, SIM7x00, a question in a connection. -/
theorem C69_sim7x00_connected (p : Platform) {rxm txm rmem wmem line ip id : List Byte} {ty : ConnType} {n : Nat}
    (hrx : 60 ≤ rxm.length) (htx : 20 ≤ txm.length) (hn : txm.length ≤ n) (hl : line.length = 61) (hip : ip.length = 16) (hid : id.length = 24)
    {ts : List (Tour (List Byte) SimQ)} (hts : ∀ t ∈ ts, Tour7x00 txm.length t)
    {a : List Byte} {r : Peer} (hf : Fits7x00 txm.length a r) {v : Visit} (hb : Dialogue (open7x00 a r) v.up) (hs : ∀ x ∈ v.stay, x.Is stay7x00)
    {is : List (Query SimQ)} (his : Asks SimQ.Fine (ask7x00 busy7x00) is) {i : Query SimQ} (hi : SimQ.Fine i.what ∧ Dialogue (ask7x00 busy7x00 i.what) i.beats) :
    let D := exec (Sim7x00.step p) (Sim7x00.init (Ser.init rxm txm []) rmem wmem ty line ip id) (.run true :: tours setup7x00 SimQ.op n ts ++ enter setup7x00 n a r v ++ inquiry SimQ.op n is)
    let e := exec (Sim7x00.step p) D (i.what.op :: List.replicate (i.runs + 1) (.run true))
    let d := exec (Sim7x00.step p) D (i.ops SimQ.op n)
    i.what.Pending e ∧ i.what.Answered d ∧ d.isConnected = true ∧ Whole d.trace ∧ utter e.trace = utter d.trace ∧
      utter d.trace = ts.flatMap (Tour.says hello7x00 bye7x00 (SimQ.say b!"AT+CICCID")) ++ (b!"ATE0\r\n" :: says (open7x00 a r)) ++
        is.map (fun j => j.what.say b!"AT+CICCID") ++ [i.what.say b!"AT+CICCID"] := by
  intro D e d
  have v0 := Sim7x00.step_inv p (.run true) (Sim7x00.inv_init rxm txm [] rmem wmem ty ip id hl)
  have h0 : Sim7x00.Here false (.start rxm.length txm.length wmem.length rmem.length ty) none none [] []
      (Sim7x00.step p (Sim7x00.init (Ser.init rxm txm []) rmem wmem ty line ip id) (.run true)) :=
    ⟨Sim7x00.init_ok (p := p) (rmem := rmem) (wmem := wmem) (ty := ty) (fun x => by simp [x] at htx) hl hip (by omega),
      Sim7x00.idLen_exec p (Sim7x00.inv_init rxm txm [] rmem wmem ty ip id hl) (by show (Mem.store _ _ _).cells.length = 24; simp [Mem.store, hid]) [.run true]⟩
  obtain ⟨c, a0, a1, _, e1, e2, hI, hm, h1⟩ := Sim7x00.tours_ok p ts (n := n) hrx htx hn ⟨rfl, rfl, rfl⟩ rfl v0 h0 hts
  rw [List.nil_append] at h1
  have hr : 60 ≤ c.rx := by rw [e1]; exact hrx
  have ht : 20 ≤ c.tx := by rw [e2]; exact htx
  have hx : c.tx ≤ n := by rw [e2]; exact hn
  have hf2 : Fits7x00 c.tx a r := by rw [e2]; exact hf
  have v1 := exec_inv (step := Sim7x00.step p) (ok := fun _ => True) (I := Sim7x00.Inv) (fun d op _ h => Sim7x00.step_inv p op h) v0 (tours setup7x00 SimQ.op n ts) fun _ _ => trivial
  have h2 : Sim7x00.Here true (c.to r) (some a) (some r.addr) [] _ _ :=
    ⟨Sim7x00.connect_ok p (n := n) hr ht hx hI hm hf2.peer hf2.texts hf2.host h1.1 v.dial hb hs,
      Sim7x00.idLen_exec p v1 h1.2 (setup7x00 a r ++ (dial v.dial ++ ops n v.up) ++ hearAll n v.stay)⟩
  rw [← exec_append] at h2
  have h3 := Sim7x00.inquiry_ok (on := true) (is := is) (c := c.to r) (n := n) p hr ht hx hI hm his h2
  rw [← exec_append] at h3
  have h5 := Sim7x00.ask_sent (c := c.to r) p ht i.what hi.1 h3 i.runs
  obtain ⟨h6, h7⟩ := Sim7x00.query_ok (on := true) (c := c.to r) (n := n) p hr ht hx hI hm hi.1 hi.2 h3
  have hq : i.what.Pending e := Sim7x00.pending h5
  have k5 := h5.1.told.all
  have k6 := h6.1.1.told.all
  exact ⟨hq, h6.answered h7, isConnected_of h6.1.1.cs, k6.2, k5.1.trans k6.1.symm, k6.1.trans (by simp [Sim7x00.iccidCommand])⟩

/-! ### SIM800 -/

/-- C69, SIM800, a question outside of a connection. -/
theorem C69_sim800 (p : Platform) {rxm txm rmem wmem line ip id : List Byte} {ty : ConnType} {n : Nat}
    (hrx : 60 ≤ rxm.length) (htx : 20 ≤ txm.length) (hn : txm.length ≤ n) (hl : line.length = 61) (hip : ip.length = 16) (hid : id.length = 24)
    {ts : List (Tour (List Byte) SimQ)} (hts : ∀ t ∈ ts, Tour800 txm.length t)
    {is : List (Query SimQ)} (his : Asks SimQ.Fine (ask800 []) is) {i : Query SimQ} (hi : SimQ.Fine i.what ∧ Dialogue (ask800 [] i.what) i.beats) :
    let D := exec (Sim800.step p) (Sim800.init (Ser.init rxm txm []) rmem wmem ty line ip id) (.run true :: tours setup7x00 SimQ.op n ts ++ inquiry SimQ.op n is)
    let e := exec (Sim800.step p) D (i.what.op :: List.replicate (i.runs + 1) (.run true))
    let d := exec (Sim800.step p) D (i.ops SimQ.op n)
    i.what.Pending e ∧ i.what.Answered d ∧ d.isIdle = true ∧ Whole d.trace ∧ utter e.trace = utter d.trace ∧
      utter d.trace = ts.flatMap (Tour.says hello800 bye800 (SimQ.say b!"AT+CCID")) ++ is.map (fun j => j.what.say b!"AT+CCID") ++ [i.what.say b!"AT+CCID"] := by
  intro D e d
  have v0 := Sim800.step_inv p (.run true) (Sim800.inv_init rxm txm [] rmem wmem ty ip id hl)
  have h0 : Sim800.Here false (.start rxm.length txm.length wmem.length rmem.length ty) none none [] []
      (Sim800.step p (Sim800.init (Ser.init rxm txm []) rmem wmem ty line ip id) (.run true)) :=
    ⟨Sim800.init_ok (p := p) (rmem := rmem) (wmem := wmem) (ty := ty) (fun x => by simp [x] at htx) hl hip (by omega),
      Sim800.idLen_exec p (Sim800.inv_init rxm txm [] rmem wmem ty ip id hl) (by show (Mem.store _ _ _).cells.length = 24; simp [Mem.store, hid]) [.run true]⟩
  obtain ⟨c, a0, a1, _, e1, e2, hI, hm, h1⟩ := Sim800.tours_ok p ts (n := n) hrx htx hn ⟨rfl, rfl, rfl⟩ rfl v0 h0 hts
  rw [List.nil_append] at h1
  have hr : 60 ≤ c.rx := by rw [e1]; exact hrx
  have ht : 20 ≤ c.tx := by rw [e2]; exact htx
  have hx : c.tx ≤ n := by rw [e2]; exact hn
  have h3 := Sim800.inquiry_ok (on := false) (is := is) (n := n) p hr ht hx hI hm his h1
  rw [← exec_append] at h3
  have h5 := Sim800.ask_sent p ht i.what hi.1 h3 i.runs
  obtain ⟨h6, h7⟩ := Sim800.query_ok (on := false) (n := n) p hr ht hx hI hm hi.1 hi.2 h3
  have hq : i.what.Pending e := Sim800.pending h5
  have k5 := h5.1.told.all
  have k6 := h6.1.1.told.all
  exact ⟨hq, h6.answered h7, isIdle_of h6.1.1.cs, k6.2, k5.1.trans k6.1.symm, k6.1⟩

/-- C69, SIM800, a question in a connection. -/
theorem C69_sim800_connected (p : Platform) {rxm txm rmem wmem line ip id : List Byte} {ty : ConnType} {n : Nat}
    (hrx : 60 ≤ rxm.length) (htx : 20 ≤ txm.length) (hn : txm.length ≤ n) (hl : line.length = 61) (hip : ip.length = 16) (hid : id.length = 24)
    {ts : List (Tour (List Byte) SimQ)} (hts : ∀ t ∈ ts, Tour800 txm.length t)
    {a : List Byte} {r : Peer} (hf : Fits800 txm.length a r) {v : Visit} (hb : Dialogue (open800 a r) v.up) (hs : ∀ x ∈ v.stay, x.Is stay800)
    {is : List (Query SimQ)} (his : Asks SimQ.Fine (ask800 busy800) is) {i : Query SimQ} (hi : SimQ.Fine i.what ∧ Dialogue (ask800 busy800 i.what) i.beats) :
    let D := exec (Sim800.step p) (Sim800.init (Ser.init rxm txm []) rmem wmem ty line ip id) (.run true :: tours setup7x00 SimQ.op n ts ++ enter setup7x00 n a r v ++ inquiry SimQ.op n is)
    let e := exec (Sim800.step p) D (i.what.op :: List.replicate (i.runs + 1) (.run true))
    let d := exec (Sim800.step p) D (i.ops SimQ.op n)
    i.what.Pending e ∧ i.what.Answered d ∧ d.isConnected = true ∧ Whole d.trace ∧ utter e.trace = utter d.trace ∧
      utter d.trace = ts.flatMap (Tour.says hello800 bye800 (SimQ.say b!"AT+CCID")) ++ (b!"ATE0\r\n" :: says (open800 a r)) ++
        is.map (fun j => j.what.say b!"AT+CCID") ++ [i.what.say b!"AT+CCID"] := by
  intro D e d
  have v0 := Sim800.step_inv p (.run true) (Sim800.inv_init rxm txm [] rmem wmem ty ip id hl)
  have h0 : Sim800.Here false (.start rxm.length txm.length wmem.length rmem.length ty) none none [] []
      (Sim800.step p (Sim800.init (Ser.init rxm txm []) rmem wmem ty line ip id) (.run true)) :=
    ⟨Sim800.init_ok (p := p) (rmem := rmem) (wmem := wmem) (ty := ty) (fun x => by simp [x] at htx) hl hip (by omega),
      Sim800.idLen_exec p (Sim800.inv_init rxm txm [] rmem wmem ty ip id hl) (by show (Mem.store _ _ _).cells.length = 24; simp [Mem.store, hid]) [.run true]⟩
  obtain ⟨c, a0, a1, _, e1, e2, hI, hm, h1⟩ := Sim800.tours_ok p ts (n := n) hrx htx hn ⟨rfl, rfl, rfl⟩ rfl v0 h0 hts
  rw [List.nil_append] at h1
  have hr : 60 ≤ c.rx := by rw [e1]; exact hrx
  have ht : 20 ≤ c.tx := by rw [e2]; exact htx
  have hx : c.tx ≤ n := by rw [e2]; exact hn
  have hf2 : Fits800 c.tx a r := by rw [e2]; exact hf
  have v1 := exec_inv (step := Sim800.step p) (ok := fun _ => True) (I := Sim800.Inv) (fun d op _ h => Sim800.step_inv p op h) v0 (tours setup7x00 SimQ.op n ts) fun _ _ => trivial
  have h2 : Sim800.Here true (c.to r) (some a) (some r.addr) [] _ _ :=
    ⟨Sim800.connect_ok p (n := n) hr ht hx hI hm hf2.peer hf2.name hf2.texts hf2.host h1.1 v.dial hb hs,
      Sim800.idLen_exec p v1 h1.2 (setup7x00 a r ++ (dial v.dial ++ ops n v.up) ++ hearAll n v.stay)⟩
  rw [← exec_append] at h2
  have h3 := Sim800.inquiry_ok (on := true) (is := is) (c := c.to r) (n := n) p hr ht hx hI hm his h2
  rw [← exec_append] at h3
  have h5 := Sim800.ask_sent (c := c.to r) p ht i.what hi.1 h3 i.runs
  obtain ⟨h6, h7⟩ := Sim800.query_ok (on := true) (c := c.to r) (n := n) p hr ht hx hI hm hi.1 hi.2 h3
  have hq : i.what.Pending e := Sim800.pending h5
  have k5 := h5.1.told.all
  have k6 := h6.1.1.told.all
  exact ⟨hq, h6.answered h7, isConnected_of h6.1.1.cs, k6.2, k5.1.trans k6.1.symm, k6.1.trans (by simp [Sim800.iccidCommand])⟩

/-! ### Espressif -/

/-- C69, Espressif, a question outside of a connection. -/
theorem C69_espressif (p : Platform) {rxm txm rmem wmem line mac : List Byte} {ty : ConnType} {n : Nat} {ssid passwd : CPtr}
    (hrx : 60 ≤ rxm.length) (htx : 20 ≤ txm.length) (hn : txm.length ≤ n) (hl : line.length = 61) (hmac : ¬ (p.charSigned = false ∧ mac.getD 1 0 = 255 ∧ mac.getD 0 0 = 0)) (hlen : mac.length = 18)
    {ts : List (Tour Wifi MacQ)} (hts : ∀ t ∈ ts, TourEsp p txm.length t)
    {is : List (Query MacQ)} (his : Asks (MacQ.Fine p) (askEsp ((58 : Byte) ∉ ·) []) is) {i : Query MacQ} (hi : (MacQ.Fine p) i.what ∧ Dialogue (askEsp ((58 : Byte) ∉ ·) [] i.what) i.beats) :
    let D := exec (Espressif.step p) (Espressif.init (Ser.init rxm txm []) rmem wmem ty line mac ssid passwd) (.run true :: tours setupEsp MacQ.op n ts ++ inquiry MacQ.op n is)
    let e := exec (Espressif.step p) D (i.what.op :: List.replicate (i.runs + 1) (.run true))
    let d := exec (Espressif.step p) D (i.ops MacQ.op n)
    i.what.PendingEsp e ∧ i.what.AnsweredEsp d ∧ d.isIdle = true ∧ Whole d.trace ∧ utter e.trace = utter d.trace ∧
      utter d.trace = ts.flatMap (Tour.says helloEsp byeEsp (MacQ.sayEsp)) ++ is.map (fun j => j.what.sayEsp) ++ [i.what.sayEsp] := by
  intro D e d
  have v0 := Espressif.step_inv p (.run true) (Espressif.inv_init rxm txm [] rmem wmem ty mac ssid passwd hl)
  have h0 : Espressif.Here false p (.start rxm.length txm.length wmem.length rmem.length ty) none [] []
      (Espressif.step p (Espressif.init (Ser.init rxm txm []) rmem wmem ty line mac ssid passwd) (.run true)) :=
    ⟨Espressif.init_ok (p := p) (rmem := rmem) (wmem := wmem) (ty := ty) (fun x => by simp [x] at htx) hl hmac,
      Espressif.macLen_exec p (Espressif.inv_init rxm txm [] rmem wmem ty mac ssid passwd hl) hlen [.run true]⟩
  obtain ⟨c, a0, _, e1, e2, hI, hm, h1⟩ := Espressif.tours_ok p ts (n := n) hrx htx hn ⟨rfl, rfl, rfl⟩ rfl v0 h0 hts
  rw [List.nil_append] at h1
  have hr : 60 ≤ c.rx := by rw [e1]; exact hrx
  have ht : 20 ≤ c.tx := by rw [e2]; exact htx
  have hx : c.tx ≤ n := by rw [e2]; exact hn
  have h3 := Espressif.inquiry_ok (on := false) (is := is) (n := n) p hr ht hx hI hm (pl := ((58 : Byte) ∉ ·)) (fun l h => .inr h) his h1
  rw [← exec_append] at h3
  have h5 := Espressif.ask_sent p ht i.what hi.1 h3 i.runs
  obtain ⟨h6, h7⟩ := Espressif.query_ok (on := false) (n := n) p hr ht hx hI hm (pl := ((58 : Byte) ∉ ·)) (fun l h => .inr h) hi.1 hi.2 h3
  have hq : i.what.PendingEsp e := Espressif.pending h5
  have k5 := h5.1.told.all
  have k6 := h6.1.1.told.all
  exact ⟨hq, h6.answered h7, isIdle_of h6.1.1.cs, k6.2, k5.1.trans k6.1.symm, k6.1⟩

/-- C69, Espressif, a question in a connection. -/
theorem C69_espressif_connected (p : Platform) {rxm txm rmem wmem line mac : List Byte} {ty : ConnType} {n : Nat} {ssid passwd : CPtr}
    (hrx : 60 ≤ rxm.length) (htx : 20 ≤ txm.length) (hn : txm.length ≤ n) (hl : line.length = 61) (hmac : ¬ (p.charSigned = false ∧ mac.getD 1 0 = 255 ∧ mac.getD 0 0 = 0)) (hlen : mac.length = 18)
    {ts : List (Tour Wifi MacQ)} (hts : ∀ t ∈ ts, TourEsp p txm.length t)
    {a : Wifi} {r : Peer} (hf : FitsEsp txm.length a r) {v : Visit} (hb : Dialogue (openEsp a r) v.up) (hs : ∀ x ∈ v.stay, x.Is (stayEsp r))
    {is : List (Query MacQ)} (his : Asks (MacQ.Fine p) (askEsp (Spec.plain r.typ) busyEsp) is) {i : Query MacQ} (hi : (MacQ.Fine p) i.what ∧ Dialogue (askEsp (Spec.plain r.typ) busyEsp i.what) i.beats) :
    let D := exec (Espressif.step p) (Espressif.init (Ser.init rxm txm []) rmem wmem ty line mac ssid passwd) (.run true :: tours setupEsp MacQ.op n ts ++ enter setupEsp n a r v ++ inquiry MacQ.op n is)
    let e := exec (Espressif.step p) D (i.what.op :: List.replicate (i.runs + 1) (.run true))
    let d := exec (Espressif.step p) D (i.ops MacQ.op n)
    i.what.PendingEsp e ∧ i.what.AnsweredEsp d ∧ d.isConnected = true ∧ Whole d.trace ∧ utter e.trace = utter d.trace ∧
      utter d.trace = ts.flatMap (Tour.says helloEsp byeEsp (MacQ.sayEsp)) ++ (b!"ATE0\r\n" :: says (openEsp a r)) ++
        is.map (fun j => j.what.sayEsp) ++ [i.what.sayEsp] := by
  intro D e d
  have v0 := Espressif.step_inv p (.run true) (Espressif.inv_init rxm txm [] rmem wmem ty mac ssid passwd hl)
  have h0 : Espressif.Here false p (.start rxm.length txm.length wmem.length rmem.length ty) none [] []
      (Espressif.step p (Espressif.init (Ser.init rxm txm []) rmem wmem ty line mac ssid passwd) (.run true)) :=
    ⟨Espressif.init_ok (p := p) (rmem := rmem) (wmem := wmem) (ty := ty) (fun x => by simp [x] at htx) hl hmac,
      Espressif.macLen_exec p (Espressif.inv_init rxm txm [] rmem wmem ty mac ssid passwd hl) hlen [.run true]⟩
  obtain ⟨c, a0, _, e1, e2, hI, hm, h1⟩ := Espressif.tours_ok p ts (n := n) hrx htx hn ⟨rfl, rfl, rfl⟩ rfl v0 h0 hts
  rw [List.nil_append] at h1
  have hr : 60 ≤ c.rx := by rw [e1]; exact hrx
  have ht : 20 ≤ c.tx := by rw [e2]; exact htx
  have hx : c.tx ≤ n := by rw [e2]; exact hn
  have hf2 : FitsEsp c.tx a r := by rw [e2]; exact hf
  have v1 := exec_inv (step := Espressif.step p) (ok := fun _ => True) (I := Espressif.Inv) (fun d op _ h => Espressif.step_inv p op h) v0 (tours setupEsp MacQ.op n ts) fun _ _ => trivial
  have h2 : Espressif.Here true p (c.to r) (some a) [] _ _ :=
    ⟨Espressif.connect_ok p (n := n) hr ht hx hI hm hf2.peer hf2.wifi hf2.texts h1.1 v.dial hb hs,
      Espressif.macLen_exec p v1 h1.2 (setupEsp a r ++ (dial v.dial ++ ops n v.up) ++ hearAll n v.stay)⟩
  rw [← exec_append] at h2
  have h3 := Espressif.inquiry_ok (on := true) (is := is) (c := c.to r) (n := n) p hr ht hx hI hm (pl := Spec.plain r.typ) (fun l h => h) his h2
  rw [← exec_append] at h3
  have h5 := Espressif.ask_sent (c := c.to r) p ht i.what hi.1 h3 i.runs
  obtain ⟨h6, h7⟩ := Espressif.query_ok (on := true) (c := c.to r) (n := n) p hr ht hx hI hm (pl := Spec.plain r.typ) (fun l h => h) hi.1 hi.2 h3
  have hq : i.what.PendingEsp e := Espressif.pending h5
  have k5 := h5.1.told.all
  have k6 := h6.1.1.told.all
  exact ⟨hq, h6.answered h7, isConnected_of h6.1.1.cs, k6.2, k5.1.trans k6.1.symm, k6.1.trans (by simp)⟩

/-! ### CC1352P7 -/

/-- C69, CC1352P7, a question outside of a connection. -/
theorem C69_cc1352p7 (p : Platform) {rxm txm rmem wmem line mac : List Byte} {ty : ConnType} {n : Nat}
    (hrx : 60 ≤ rxm.length) (htx : 20 ≤ txm.length) (hn : txm.length ≤ n) (hl : line.length = 61) (hmac : ¬ (p.charSigned = false ∧ mac.getD 1 0 = 255 ∧ mac.getD 0 0 = 0)) (hlen : mac.length = 24)
    {ts : List (Tour Unit MacQ)} (hts : ∀ t ∈ ts, TourCC p txm.length t)
    {is : List (Query MacQ)} (his : Asks (MacQ.Fine p) (askCC []) is) {i : Query MacQ} (hi : (MacQ.Fine p) i.what ∧ Dialogue (askCC [] i.what) i.beats) :
    let D := exec (CC1352P7.step p) (CC1352P7.init (Ser.init rxm txm []) rmem wmem ty line mac) (.run true :: tours (fun _ => setupCC) MacQ.op n ts ++ inquiry MacQ.op n is)
    let e := exec (CC1352P7.step p) D (i.what.op :: List.replicate (i.runs + 1) (.run true))
    let d := exec (CC1352P7.step p) D (i.ops MacQ.op n)
    i.what.PendingCC e ∧ i.what.AnsweredCC d ∧ d.isIdle = true ∧ Whole d.trace ∧ utter e.trace = utter d.trace ∧
      utter d.trace = ts.flatMap (Tour.says helloCC byeCC (MacQ.sayCC)) ++ is.map (fun j => j.what.sayCC) ++ [i.what.sayCC] := by
  intro D e d
  have v0 := CC1352P7.step_inv p (.run true) (CC1352P7.inv_init rxm txm [] rmem wmem ty mac hl)
  have h0 : CC1352P7.Here false p (.start rxm.length txm.length wmem.length rmem.length ty) [] []
      (CC1352P7.step p (CC1352P7.init (Ser.init rxm txm []) rmem wmem ty line mac) (.run true)) :=
    ⟨CC1352P7.init_ok (p := p) (rmem := rmem) (wmem := wmem) (ty := ty) (fun x => by simp [x] at htx) hl hmac,
      CC1352P7.macLen_exec p (CC1352P7.inv_init rxm txm [] rmem wmem ty mac hl) hlen [.run true]⟩
  obtain ⟨c, _, e1, e2, hI, hm, h1⟩ := CC1352P7.tours_ok p ts (n := n) hrx htx hn ⟨rfl, rfl, rfl⟩ rfl v0 h0 hts
  rw [List.nil_append] at h1
  have hr : 60 ≤ c.rx := by rw [e1]; exact hrx
  have ht : 20 ≤ c.tx := by rw [e2]; exact htx
  have hx : c.tx ≤ n := by rw [e2]; exact hn
  have h3 := CC1352P7.inquiry_ok (on := false) (is := is) (n := n) p hr ht hx hI hm his h1
  rw [← exec_append] at h3
  have h5 := CC1352P7.ask_sent p ht i.what hi.1 h3 i.runs
  obtain ⟨h6, h7⟩ := CC1352P7.query_ok (on := false) (n := n) p hr ht hx hI hm hi.1 hi.2 h3
  have hq : i.what.PendingCC e := CC1352P7.pending h5
  have k5 := h5.1.told.all
  have k6 := h6.1.1.told.all
  exact ⟨hq, h6.answered h7, isIdle_of h6.1.1.cs, k6.2, k5.1.trans k6.1.symm, k6.1⟩

/-- C69, CC1352P7, a question in a connection. -/
theorem C69_cc1352p7_connected (p : Platform) {rxm txm rmem wmem line mac : List Byte} {ty : ConnType} {n : Nat}
    (hrx : 60 ≤ rxm.length) (htx : 20 ≤ txm.length) (hn : txm.length ≤ n) (hl : line.length = 61) (hmac : ¬ (p.charSigned = false ∧ mac.getD 1 0 = 255 ∧ mac.getD 0 0 = 0)) (hlen : mac.length = 24)
    {ts : List (Tour Unit MacQ)} (hts : ∀ t ∈ ts, TourCC p txm.length t)
    {r : Peer} (hf : FitsCC txm.length r) {v : Visit} (hb : Dialogue (openCC r) v.up) (hs : ∀ x ∈ v.stay, x.Is stayCC)
    {is : List (Query MacQ)} (his : Asks (MacQ.Fine p) (askCC busyCC) is) {i : Query MacQ} (hi : (MacQ.Fine p) i.what ∧ Dialogue (askCC busyCC i.what) i.beats) :
    let D := exec (CC1352P7.step p) (CC1352P7.init (Ser.init rxm txm []) rmem wmem ty line mac) (.run true :: tours (fun _ => setupCC) MacQ.op n ts ++ enter (fun _ => setupCC) n () r v ++ inquiry MacQ.op n is)
    let e := exec (CC1352P7.step p) D (i.what.op :: List.replicate (i.runs + 1) (.run true))
    let d := exec (CC1352P7.step p) D (i.ops MacQ.op n)
    i.what.PendingCC e ∧ i.what.AnsweredCC d ∧ d.isConnected = true ∧ Whole d.trace ∧ utter e.trace = utter d.trace ∧
      utter d.trace = ts.flatMap (Tour.says helloCC byeCC (MacQ.sayCC)) ++ (b!"ATE0\r\n" :: says (openCC r)) ++
        is.map (fun j => j.what.sayCC) ++ [i.what.sayCC] := by
  intro D e d
  have v0 := CC1352P7.step_inv p (.run true) (CC1352P7.inv_init rxm txm [] rmem wmem ty mac hl)
  have h0 : CC1352P7.Here false p (.start rxm.length txm.length wmem.length rmem.length ty) [] []
      (CC1352P7.step p (CC1352P7.init (Ser.init rxm txm []) rmem wmem ty line mac) (.run true)) :=
    ⟨CC1352P7.init_ok (p := p) (rmem := rmem) (wmem := wmem) (ty := ty) (fun x => by simp [x] at htx) hl hmac,
      CC1352P7.macLen_exec p (CC1352P7.inv_init rxm txm [] rmem wmem ty mac hl) hlen [.run true]⟩
  obtain ⟨c, _, e1, e2, hI, hm, h1⟩ := CC1352P7.tours_ok p ts (n := n) hrx htx hn ⟨rfl, rfl, rfl⟩ rfl v0 h0 hts
  rw [List.nil_append] at h1
  have hr : 60 ≤ c.rx := by rw [e1]; exact hrx
  have ht : 20 ≤ c.tx := by rw [e2]; exact htx
  have hx : c.tx ≤ n := by rw [e2]; exact hn
  have hf2 : FitsCC c.tx r := by rw [e2]; exact hf
  have v1 := exec_inv (step := CC1352P7.step p) (ok := fun _ => True) (I := CC1352P7.Inv) (fun d op _ h => CC1352P7.step_inv p op h) v0 (tours (fun _ => setupCC) MacQ.op n ts) fun _ _ => trivial
  have h2 : CC1352P7.Here true p (c.to r) [] _ _ :=
    ⟨CC1352P7.connect_ok p (n := n) hr ht hx hI hm hf2.peer hf2.texts h1.1 v.dial hb hs,
      CC1352P7.macLen_exec p v1 h1.2 (setupCC r ++ (dial v.dial ++ ops n v.up) ++ hearAll n v.stay)⟩
  rw [← exec_append] at h2
  have h3 := CC1352P7.inquiry_ok (on := true) (is := is) (c := c.to r) (n := n) p hr ht hx hI hm his h2
  rw [← exec_append] at h3
  have h5 := CC1352P7.ask_sent (c := c.to r) p ht i.what hi.1 h3 i.runs
  obtain ⟨h6, h7⟩ := CC1352P7.query_ok (on := true) (c := c.to r) (n := n) p hr ht hx hI hm hi.1 hi.2 h3
  have hq : i.what.PendingCC e := CC1352P7.pending h5
  have k5 := h5.1.told.all
  have k6 := h6.1.1.told.all
  exact ⟨hq, h6.answered h7, isConnected_of h6.1.1.cs, k6.2, k5.1.trans k6.1.symm, k6.1.trans (by simp)⟩

/-! ### Examples

Questions with an empty line before the answer; the line with the value arrives in two pieces. -/

open Handshake

/-- An empty line. -/
def blank : Spoken := ⟨[(b!"\r", 2)], [nl], 1⟩

/-- The answer to a question. -/
def reply (u v : List Byte) : List Beat := [⟨[blank], [(u, 1)], v, 0⟩, ⟨[blank], [], b!"OK\r" ++ [nl], 2⟩]

theorem reply_ok {value ok : Await} {u v t : List Byte} (he : u ++ v = t ++ [nl]) (hv : v ≠ []) (h : t.length < 60 ∧ nl ∉ t ∧ gt ∉ t ∧ (0 : Byte) ∉ t)
    (hg : value.good (t ++ [nl])) (hi : value.idle (b!"\r" ++ [nl])) (ho : ok.good (b!"OK\r" ++ [nl])) (hj : ok.idle (b!"\r" ++ [nl])) :
    Dialogue (answer value ok) (reply u v) := by
  have e : (⟨[(u, 1)], v, 0⟩ : Spoken).text = t ++ [nl] := by simp [Spoken.text, he]
  have hb {i : List Byte → Prop} (h : i (b!"\r" ++ [nl])) : ∀ x ∈ [blank], x.Is i := by
    simp only [List.mem_singleton]; rintro x rfl; exact ⟨by simp [blank], line_of (t := b!"\r") (by decide), h⟩
  exact .cons ⟨⟨hv, by rw [e]; exact line_of h, by rw [e]; exact hg⟩, hb hi⟩ <|
    .cons ⟨⟨by simp, line_of (t := b!"OK\r") (by decide), ho⟩, hb hj⟩ .nil

def askCsq : Query SimQ := ⟨.signal 20, 3, reply b!"+CSQ: 2" b!"0,99\r\n"⟩
def askImei : Query SimQ := ⟨.ident .imei b!"867322035041386", 0, reply b!"86732203504" b!"1386\r\n"⟩
def askIccid : Query SimQ := ⟨.ident .iccid b!"8944500102198304826", 1, reply b!"+ICCID: 89445001" b!"02198304826\r\n"⟩

/-- Only the first 23 characters of this text are kept. -/
def askModel : Query SimQ := ⟨.ident .model b!"SIMCOM_SIM7600E-H_with_a_long_name", 0, reply [] b!"SIMCOM_SIM7600E-H_with_a_long_name\r\n"⟩

theorem iccid_valid : ValidIccid b!"8944500102198304826" :=
  ⟨b!"8944500102198304826", [], by simp, by decide, by decide, by decide, by decide, by decide, by decide⟩

theorem asks7x00 {bad : List (List Byte)} (hb : bad = [] ∨ bad = busy7x00) : Asks SimQ.Fine (ask7x00 bad) [askCsq, askImei, askIccid, askModel] := by
  simp only [Asks, List.mem_cons, List.not_mem_nil, or_false]
  have ho : (await b!"OK" (b!"ERROR" :: bad)).idle (b!"\r" ++ [nl]) := by
    rcases hb with rfl | rfl <;> (show Spec.Clear _ _; unfold Spec.Clear; decide)
  have hi : Spec.Clear (b!"OK" :: b!"ERROR" :: bad) (b!"\r" ++ [nl]) := by
    rcases hb with rfl | rfl <;> (unfold Spec.Clear; decide)
  have hg : (await b!"OK" (b!"ERROR" :: bad)).good (b!"OK\r" ++ [nl]) := by show b!"OK" <+: _; decide
  rintro i (rfl | rfl | rfl | rfl)
  · exact ⟨by show 20 < 2147483648; decide, reply_ok (t := b!"+CSQ: 20,99\r") (by decide) (by decide) (by decide)
      ⟨⟨b!",99\r\n", by simp [decimals, nl], .inl rfl⟩, by rcases hb with rfl | rfl <;> (unfold Spec.Clear; decide)⟩ ⟨hi, by show ¬ _ <+: _; decide⟩ hg ho⟩
  · exact ⟨⟨by decide, by decide, by decide, fun h => by cases h⟩, reply_ok (t := b!"867322035041386\r") (by decide) (by decide) (by decide)
      ⟨.inl ⟨by decide, by decide, by decide⟩, by rcases hb with rfl | rfl <;> (unfold Spec.Clear; decide)⟩ ⟨hi, .inr (.inl (by decide))⟩ hg ho⟩
  · exact ⟨⟨by decide, by decide, by decide, fun _ => iccid_valid⟩, reply_ok (t := b!"+ICCID: 8944500102198304826\r") (by decide) (by decide) (by decide)
      ⟨.inr (by decide), by rcases hb with rfl | rfl <;> (unfold Spec.Clear; decide)⟩ ⟨hi, .inr (.inl (by decide))⟩ hg ho⟩
  · exact ⟨⟨by decide, by decide, by decide, fun h => by cases h⟩, reply_ok (t := b!"SIMCOM_SIM7600E-H_with_a_long_name\r") (by decide) (by decide) (by decide)
      ⟨.inl ⟨by decide, by decide, by decide⟩, by rcases hb with rfl | rfl <;> (unfold Spec.Clear; decide)⟩ ⟨hi, .inr (.inl (by decide))⟩ hg ho⟩

theorem asks800 {bad : List (List Byte)} (hb : bad = [] ∨ bad = busy800) : Asks SimQ.Fine (ask800 bad) [askCsq, askImei, askIccid, askModel] := by
  simp only [Asks, List.mem_cons, List.not_mem_nil, or_false]
  have ho : (await b!"OK" (errors800 ++ bad)).idle (b!"\r" ++ [nl]) := by
    rcases hb with rfl | rfl <;> (show Spec.Clear _ _; unfold Spec.Clear; decide)
  have hi : Spec.Clear (b!"OK" :: errors800 ++ bad) (b!"\r" ++ [nl]) := by
    rcases hb with rfl | rfl <;> (unfold Spec.Clear; decide)
  have hg : (await b!"OK" (errors800 ++ bad)).good (b!"OK\r" ++ [nl]) := by show b!"OK" <+: _; decide
  rintro i (rfl | rfl | rfl | rfl)
  · exact ⟨by show 20 < 2147483648; decide, reply_ok (t := b!"+CSQ: 20,99\r") (by decide) (by decide) (by decide)
      ⟨⟨b!",99\r\n", by simp [decimals, nl], .inl rfl⟩, by rcases hb with rfl | rfl <;> (unfold Spec.Clear; decide)⟩ ⟨hi, .inr (.inl (by decide)), by show ¬ _ <+: _; decide⟩ hg ho⟩
  · exact ⟨⟨by decide, by decide, by decide, fun h => by cases h⟩, reply_ok (t := b!"867322035041386\r") (by decide) (by decide) (by decide)
      ⟨.inl ⟨by decide, by decide, by decide⟩, by rcases hb with rfl | rfl <;> (unfold Spec.Clear; decide)⟩ ⟨hi, .inr (.inl (by decide)), trivial⟩ hg ho⟩
  · exact ⟨⟨by decide, by decide, by decide, fun _ => iccid_valid⟩, reply_ok (t := b!"+ICCID: 8944500102198304826\r") (by decide) (by decide) (by decide)
      ⟨.inr (by decide), by rcases hb with rfl | rfl <;> (unfold Spec.Clear; decide)⟩ ⟨hi, .inr (.inl (by decide)), trivial⟩ hg ho⟩
  · exact ⟨⟨by decide, by decide, by decide, fun h => by cases h⟩, reply_ok (t := b!"SIMCOM_SIM7600E-H_with_a_long_name\r") (by decide) (by decide) (by decide)
      ⟨.inl ⟨by decide, by decide, by decide⟩, by rcases hb with rfl | rfl <;> (unfold Spec.Clear; decide)⟩ ⟨hi, .inr (.inl (by decide)), trivial⟩ hg ho⟩

def askCwjap : Query MacQ := ⟨.signal (-61), 0, reply b!"+CWJAP:\"home net\",\"c8:3a:35" b!":00:11:22\",11,-61,0\r\n"⟩
def askNoAp : Query MacQ := ⟨.none, 0, reply b!"No" b!" AP\r\n"⟩
def askMac : Query MacQ := ⟨.mac b!"5c:cf:7f:00:11:22", 0, reply b!"+CIPSTAMAC:\"5c:cf" b!":7f:00:11:22\"\r\n"⟩

theorem asksEsp {pl : List Byte → Prop} (hp : ∀ l, (58 : Byte) ∉ l → pl l) {bad : List (List Byte)} (hb : bad = [] ∨ bad = busyEsp) :
    Asks (MacQ.Fine Sess.arm) (askEsp pl bad) [askCwjap, askNoAp, askMac] := by
  simp only [Asks, List.mem_cons, List.not_mem_nil, or_false]
  have hi : Spec.Clear (b!"OK" :: errorsEsp ++ bad) (b!"\r" ++ [nl]) := by
    rcases hb with rfl | rfl <;> (unfold Spec.Clear; decide)
  have ho : pl (b!"\r" ++ [nl]) := hp _ (by decide)
  have hg : b!"OK" <+: (b!"OK\r" ++ [nl]) ∧ pl (b!"OK\r" ++ [nl]) := ⟨by decide, hp _ (by decide)⟩
  rintro i (rfl | rfl | rfl)
  · exact ⟨by show (-32768 : Int) ≤ -61 ∧ (-61 : Int) < 32767; decide, reply_ok (t := b!"+CWJAP:\"home net\",\"c8:3a:35:00:11:22\",11,-61,0\r") (by decide) (by decide) (by decide)
      ⟨b!"\"home net\"", b!"\"c8:3a:35:00:11:22\"", b!"11", b!",0\r\n", by simp [signed, decimals, nl], by decide, by decide, by decide, .inl rfl⟩
      ⟨hi, by decide, by decide⟩ hg ⟨hi, ho⟩⟩
  · exact ⟨trivial, reply_ok (t := b!"No AP\r") (by decide) (by decide) (by decide) (by show b!"No AP" <+: _; decide) ⟨hi, by decide, by decide⟩ hg ⟨hi, ho⟩⟩
  · exact ⟨⟨rfl, by decide, by decide⟩, reply_ok (t := b!"+CIPSTAMAC:\"5c:cf:7f:00:11:22\"\r") (by decide) (by decide) (by decide)
      ⟨b!"\r\n", by decide⟩ ⟨hi, by show ¬ _ <+: _; decide⟩ hg ⟨hi, ho⟩⟩

def askCsqCC : Query MacQ := ⟨.signal (-87), 0, reply b!"+CSQ:-" b!"87\r\n"⟩
def askMacCC : Query MacQ := ⟨.mac b!"00:12:4b:00:14:f7:d2:e5", 0, reply b!"+CIPSTAMAC:\"00:12:" b!"4b:00:14:f7:d2:e5\"\r\n"⟩

theorem asksCC {bad : List (List Byte)} (hb : bad = [] ∨ bad = busyCC) :
    Asks (MacQ.Fine Sess.arm) (askCC bad) [askCsqCC, askMacCC] := by
  simp only [Asks, List.mem_cons, List.not_mem_nil, or_false]
  have hi : Spec.Clear (b!"OK" :: b!"ERROR" :: bad) (b!"\r" ++ [nl]) := by
    rcases hb with rfl | rfl <;> (unfold Spec.Clear; decide)
  have hg : (await b!"OK" (b!"ERROR" :: bad)).good (b!"OK\r" ++ [nl]) := by show b!"OK" <+: _; decide
  rintro i (rfl | rfl)
  · exact ⟨by show (-32768 : Int) ≤ -87 ∧ (-87 : Int) < 32767; decide, reply_ok (t := b!"+CSQ:-87\r") (by decide) (by decide) (by decide)
      ⟨b!"\r\n", by simp [signed, decimals, nl], .inr rfl⟩ ⟨hi, by decide, by show ¬ _ <+: _; decide⟩ hg hi⟩
  · exact ⟨⟨rfl, by decide, by decide⟩, reply_ok (t := b!"+CIPSTAMAC:\"00:12:4b:00:14:f7:d2:e5\"\r") (by decide) (by decide) (by decide)
      ⟨b!"\r\n", by decide⟩ ⟨hi, by decide, trivial⟩ hg hi⟩

/-- Two connections with questions before and during them. -/
def toursOf {A Q : Type} (ts : List (Trip A)) (is : List (Query Q)) : List (Tour A Q) := ts.map fun t => ⟨is, t.access, t.peer, t.visit, is⟩

example : ∀ t ∈ toursOf [trip7x00 server, trip7x00 other] [askCsq, askImei, askIccid, askModel], Tour7x00 80 t := by
  simp only [toursOf, List.mem_map]
  rintro _ ⟨t, ht, rfl⟩
  exact ⟨(trips7x00 t ht).1, (trips7x00 t ht).2, asks7x00 (.inl rfl), asks7x00 (.inr rfl)⟩

example : ∀ t ∈ toursOf [trip800 server, trip800 other] [askCsq, askImei, askIccid, askModel], Tour800 80 t := by
  simp only [toursOf, List.mem_map]
  rintro _ ⟨t, ht, rfl⟩
  exact ⟨(trips800 t ht).1, (trips800 t ht).2, asks800 (.inl rfl), asks800 (.inr rfl)⟩

example : ∀ t ∈ toursOf [tripEsp server, tripEsp other] [askCwjap, askNoAp, askMac], TourEsp Sess.arm 80 t := by
  simp only [toursOf, List.mem_map]
  rintro _ ⟨t, ht, rfl⟩
  exact ⟨(tripsEsp t ht).1, (tripsEsp t ht).2, asksEsp (fun _ h => h) (.inl rfl), asksEsp (fun _ h => .inr h) (.inr rfl)⟩

example : ∀ t ∈ toursOf [tripCC server, tripCC other] [askCsqCC, askMacCC], TourCC Sess.arm 80 t := by
  simp only [toursOf, List.mem_map]
  rintro _ ⟨t, ht, rfl⟩
  exact ⟨(tripsCC t ht).1, (tripsCC t ht).2, asksCC (.inl rfl), asksCC (.inr rfl)⟩

/-! ### Answers that are not understood

The name of a wireless network has up to 32 characters and may have any of them. -/

/-- C69, Espressif: with a name of 32 characters the line with the signal strength does not fit into the line buffer of the
driver. No value is reported, and the driver asks again and again: three complete answers, four commands. -/
theorem C69_espressif_long :
    let l := b!"+CWJAP:\"12345678901234567890123456789012\",\"c8:3a:35:00:11:22\",11,-61,0\r\n"
    let answer := Sess.talk l ++ Sess.talk b!"\r\n" ++ Sess.talk b!"OK\r\n"
    let d := exec (Espressif.step Sess.arm) Sess.espressif ([.run true, .requestRSSI, .run true] ++ answer ++ answer ++ answer)
    d.getRSSI = 32767 ∧ utter d.trace = List.replicate 4 b!"AT+CWJAP?\r\n" := by
  decide +kernel

/-- C69, Espressif: with a comma in the name a wrong value is reported: the channel. -/
theorem C69_espressif_comma :
    let d := exec (Espressif.step Sess.arm) Sess.espressif ([.run true, .requestRSSI, .run true] ++
      Sess.talk b!"+CWJAP:\"a,b\",\"c8:3a:35:00:11:22\",11,-61,0\r\n" ++ Sess.talk b!"\r\n" ++ Sess.talk b!"OK\r\n")
    d.getRSSI = 11 := by
  decide +kernel

/-- C69, SIM7x00: a message of the modem that does not start with a plus sign is taken for the identification. -/
theorem C69_sim7x00_ring :
    let d := exec (Sim7x00.step Sess.arm) Sess.sim7x00 ([.run true, .requestID .imei, .run true] ++
      Sess.talk b!"RING\r\n" ++ Sess.talk b!"867322035041386\r\n" ++ Sess.talk b!"OK\r\n")
    d.getIDString = some b!"RING" := by
  decide +kernel

/-- C69, SIM800: likewise. -/
theorem C69_sim800_ring :
    let d := exec (Sim800.step Sess.arm) Sess.sim800 ([.run true, .requestID .imei, .run true] ++
      Sess.talk b!"RING\r\n" ++ Sess.talk b!"867322035041386\r\n" ++ Sess.talk b!"OK\r\n")
    d.getIDString = some b!"RING" := by
  decide +kernel

/-- C69, SIM7x00: the modem has no valid ICCID (no card, say). The driver waits for ever for a valid one: it does not
connect, although `connect()` is accepted. -/
theorem C69_sim7x00_iccid :
    let d := exec (Sim7x00.step Sess.arm) Sess.sim7x00 ([.run true, .requestID .iccid, .run true] ++
      Sess.talk b!"+ICCID: 1234\r\n" ++ Sess.talk b!"OK\r\n" ++ Sess.up7x00 .tcp)
    d.getIDString = none ∧ utter d.trace = [b!"AT+CICCID\r\n"] ∧ .apiConnect ∈ d.trace ∧ d.isConnected = false := by
  decide +kernel


end Verif.Props.Asking
