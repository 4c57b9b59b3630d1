import Verif.Lemmas.Detected
import Verif.Lemmas.Tours
import Verif.Props.Handshake
import Verif.Spec.Sessions

/-!
# C71: an attached modem is detected and can be used

The environment is that of `Verif.Spec.Chat` and `Verif.Spec.Detect`: before detection is started the modem may say
anything; after AT+CGMM (and AT+GMR) it answers as its model does, with other lines before, between and after; lines arrive
in pieces, with any number of calls of `run()` between them. Then

* the detector reports a detected modem, and has sent nothing but its queries;
* the driver it hands out is the one for the modem, and it can be used: it opens any number of connections one after the
  other, answers questions, and is connected in the end, after exactly the commands that are needed. (Before, the rest of
  the answer to the query has arrived.)
-/

namespace Verif.Props.Detect

open Verif Dev Spec ModemDetect

/-! ### Sim7x00 -/

/-- C71, Sim7x00: the modem is detected. -/
theorem C71_sim7x00 (p : Platform) {rxm txm : List Byte} {n : Nat} (hrx : 60 ≤ rxm.length) (htx : 20 ≤ txm.length) (hn : txm.length ≤ n)
    {s : Search} (hs : s.Ok find7x00) :
    let m := execD p (ModemDetect.init (Ser.init rxm txm [])) (s.ops n)
    modemDetected m = true ∧ m.ser.sent = b!"AT+CGMM\r\n" ∧ m.modem = none := by
  intro m
  have h := search_sim7x00 p hrx htx hn rfl rfl hs
  exact ⟨by unfold modemDetected; rw [h.det]; rfl, h.said, h.modem⟩

/-- C71, Sim7x00: the driver for it connects. -/
theorem C71_sim7x00_used (p : Platform) {rxm txm : List Byte} {n : Nat} (hrx : 60 ≤ rxm.length) (htx : 20 ≤ txm.length) (hn : txm.length ≤ n)
    {s : Search} (hs : s.Ok find7x00) {b : Mems} (hl : b.line.length = 61) (hip : b.ip.length = 16) (hid : b.id.length = 24)
    {rest : List Spoken} (hrest : ∀ y ∈ rest, y.Is (fun _ => True))
    {ts : List (Tour (List Byte) SimQ)} (hts : ∀ t ∈ ts, Tour7x00 txm.length t)
    {a : List Byte} {r : Peer} (hf : Fits7x00 txm.length a r) {v : Visit} (hb : Dialogue (open7x00 a r) v.up) (hst : ∀ y ∈ v.stay, y.Is stay7x00) :
    ∃ d, (execD p (ModemDetect.init (Ser.init rxm txm [])) (s.ops n ++
        .get b :: (hearAll n rest ++ (tours setup7x00 SimQ.op n ts ++ enter setup7x00 n a r v)).map via)).modem = some (.sim7x00 d) ∧
      d.isConnected = true ∧ Whole d.trace ∧
      utter d.trace = ts.flatMap (Tour.says hello7x00 bye7x00 (SimQ.say b!"AT+CICCID")) ++ (b!"ATE0\r\n" :: says (open7x00 a r)) := by
  have h := search_sim7x00 p hrx htx hn rfl rfl hs
  rw [execD_append]
  generalize execD p (ModemDetect.init (Ser.init rxm txm [])) (s.ops n) = m at h
  have hc := h.ser
  have hfr := h.free (by rw [h.det]; decide) (by rw [h.det]; decide)
  have hg : (getDetectedModem m b).modem = some (.sim7x00 { Sim7x00.init m.ser b.rmem b.wmem b.typ b.line b.ip b.id with isOpen := true }) := by
    unfold getDetectedModem MD.serial MD.serialOpen
    rw [h.modem, h.det, h.isOpen]
    rfl
  show ∃ d, (execD p (getDetectedModem m b) _).modem = _ ∧ _
  rw [forward_sim7x00 p hg]
  refine ⟨_, rfl, ?_⟩
  have v0 : Sim7x00.Inv _ := Sim7x00.made_inv (s := m.ser) (rmem := b.rmem) (wmem := b.wmem) (ty := b.typ) (line := b.line) (ip := b.ip) (id := b.id) hc hl
  have h0 := Sim7x00.made_ok (s := m.ser) (rmem := b.rmem) (wmem := b.wmem) (ty := b.typ) (line := b.line) (ip := b.ip) (id := b.id) hc hfr hl hip (by omega)
  generalize hd : ({ Sim7x00.init m.ser b.rmem b.wmem b.typ b.line b.ip b.id with isOpen := true } : Sim7x00.D) = d0 at v0 h0
  have k0 : d0.ext.id.cells.length = 24 := by rw [← hd]; exact (by show (Mem.store _ _ _).cells.length = 24; simp [Mem.store, hid])
  generalize eC : Conf.start rxm.length txm.length b.wmem.length b.rmem.length b.typ = C at h0
  have i0 : C.rx = rxm.length ∧ C.tx = txm.length ∧ C.Idle ∧ C.part = [] ∧ C.typ = b.typ := by subst eC; exact ⟨rfl, rfl, ⟨rfl, rfl, rfl⟩, rfl, rfl⟩
  obtain ⟨i1, i2, i3, i4, i5⟩ := i0
  have e0 := Conf.mid_nil i4
  rw [← e0] at h0
  have hr0 : 60 ≤ C.rx := by rw [i1]; exact hrx
  have ht0 : 20 ≤ C.tx := by rw [i2]; exact htx
  have hn0 : C.tx ≤ n := by rw [i2]; exact hn
  have h1 := exec_hearAll (step := Sim7x00.step p) (n := n) (P := fun u => Sim7x00.Down (C.mid u) none none [] []) Sim7x00.step_irq
    (fun u d hd => Sim7x00.down_idle (c := C.mid u) p hr0 ht0 hn0 i3 hd)
    (fun u v z d hd hl hz ho => Sim7x00.down_more p hr0 ht0 hn0 i3 hd hl hz)
    (fun u v d hd hl hv hs => Sim7x00.down_noise p hr0 ht0 hn0 i3 hd hl hv) h0 hrest
  rw [e0] at h1
  have v1 := exec_inv (step := Sim7x00.step p) (ok := fun _ => True) (I := Sim7x00.Inv) (fun d op _ h => Sim7x00.step_inv p op h) v0 (hearAll n rest) fun _ _ => trivial
  have k1 := Sim7x00.idLen_exec p v0 k0 (hearAll n rest)
  rw [exec_append]
  generalize exec (Sim7x00.step p) d0 (hearAll n rest) = d1 at h1 v1 k1
  obtain ⟨c, a0, a1, _, e1, e2, hI, hm, h1⟩ := Sim7x00.tours_ok p ts (n := n) hr0 ht0 hn0 i3 i4 v1 ⟨h1, k1⟩ (by rw [i2]; exact hts)
  rw [List.nil_append] at h1
  have hr : 60 ≤ c.rx := by rw [e1]; exact hr0
  have ht : 20 ≤ c.tx := by rw [e2]; exact ht0
  have hx : c.tx ≤ n := by rw [e2]; exact hn0
  have hf2 : Fits7x00 c.tx a r := by rw [e2, i2]; exact hf
  have h2 := Sim7x00.connect_ok p (n := n) hr ht hx hI hm hf2.peer hf2.texts hf2.host h1.1 v.dial hb hst
  rw [exec_append]
  have k6 := h2.1.told.all
  exact ⟨isConnected_of h2.1.cs, k6.2, k6.1.trans (by simp [Sim7x00.iccidCommand])⟩

/-! ### Sim800 -/

/-- C71, Sim800: the modem is detected. -/
theorem C71_sim800 (p : Platform) {rxm txm : List Byte} {n : Nat} (hrx : 60 ≤ rxm.length) (htx : 20 ≤ txm.length) (hn : txm.length ≤ n)
    {s : Search} (hs : s.Ok find800) :
    let m := execD p (ModemDetect.init (Ser.init rxm txm [])) (s.ops n)
    modemDetected m = true ∧ m.ser.sent = b!"AT+CGMM\r\n" ∧ m.modem = none := by
  intro m
  have h := search_sim800 p hrx htx hn rfl rfl hs
  exact ⟨by unfold modemDetected; rw [h.det]; rfl, h.said, h.modem⟩

/-- C71, Sim800: the driver for it connects. -/
theorem C71_sim800_used (p : Platform) {rxm txm : List Byte} {n : Nat} (hrx : 60 ≤ rxm.length) (htx : 20 ≤ txm.length) (hn : txm.length ≤ n)
    {s : Search} (hs : s.Ok find800) {b : Mems} (hl : b.line.length = 61) (hip : b.ip.length = 16) (hid : b.id.length = 24)
    {rest : List Spoken} (hrest : ∀ y ∈ rest, y.Is (Clear errors800))
    {ts : List (Tour (List Byte) SimQ)} (hts : ∀ t ∈ ts, Tour800 txm.length t)
    {a : List Byte} {r : Peer} (hf : Fits800 txm.length a r) {v : Visit} (hb : Dialogue (open800 a r) v.up) (hst : ∀ y ∈ v.stay, y.Is stay800) :
    ∃ d, (execD p (ModemDetect.init (Ser.init rxm txm [])) (s.ops n ++
        .get b :: (hearAll n rest ++ (tours setup7x00 SimQ.op n ts ++ enter setup7x00 n a r v)).map via)).modem = some (.sim800 d) ∧
      d.isConnected = true ∧ Whole d.trace ∧
      utter d.trace = ts.flatMap (Tour.says hello800 bye800 (SimQ.say b!"AT+CCID")) ++ (b!"ATE0\r\n" :: says (open800 a r)) := by
  have h := search_sim800 p hrx htx hn rfl rfl hs
  rw [execD_append]
  generalize execD p (ModemDetect.init (Ser.init rxm txm [])) (s.ops n) = m at h
  have hc := h.ser
  have hfr := h.free (by rw [h.det]; decide) (by rw [h.det]; decide)
  have hg : (getDetectedModem m b).modem = some (.sim800 { Sim800.init m.ser b.rmem b.wmem b.typ b.line b.ip b.id with isOpen := true }) := by
    unfold getDetectedModem MD.serial MD.serialOpen
    rw [h.modem, h.det, h.isOpen]
    rfl
  show ∃ d, (execD p (getDetectedModem m b) _).modem = _ ∧ _
  rw [forward_sim800 p hg]
  refine ⟨_, rfl, ?_⟩
  have v0 : Sim800.Inv _ := Sim800.made_inv (s := m.ser) (rmem := b.rmem) (wmem := b.wmem) (ty := b.typ) (line := b.line) (ip := b.ip) (id := b.id) hc hl
  have h0 := Sim800.made_ok (s := m.ser) (rmem := b.rmem) (wmem := b.wmem) (ty := b.typ) (line := b.line) (ip := b.ip) (id := b.id) hc hfr hl hip (by omega)
  generalize hd : ({ Sim800.init m.ser b.rmem b.wmem b.typ b.line b.ip b.id with isOpen := true } : Sim800.D) = d0 at v0 h0
  have k0 : d0.ext.id.cells.length = 24 := by rw [← hd]; exact (by show (Mem.store _ _ _).cells.length = 24; simp [Mem.store, hid])
  generalize eC : Conf.start rxm.length txm.length b.wmem.length b.rmem.length b.typ = C at h0
  have i0 : C.rx = rxm.length ∧ C.tx = txm.length ∧ C.Idle ∧ C.part = [] ∧ C.typ = b.typ := by subst eC; exact ⟨rfl, rfl, ⟨rfl, rfl, rfl⟩, rfl, rfl⟩
  obtain ⟨i1, i2, i3, i4, i5⟩ := i0
  have e0 := Conf.mid_nil i4
  rw [← e0] at h0
  have hr0 : 60 ≤ C.rx := by rw [i1]; exact hrx
  have ht0 : 20 ≤ C.tx := by rw [i2]; exact htx
  have hn0 : C.tx ≤ n := by rw [i2]; exact hn
  have h1 := exec_hearAll (step := Sim800.step p) (n := n) (P := fun u => Sim800.Down (C.mid u) none none [] []) Sim800.step_irq
    (fun u d hd => Sim800.down_idle (c := C.mid u) p hr0 ht0 hn0 i3 hd)
    (fun u v z d hd hl hz ho => Sim800.down_more p hr0 ht0 hn0 i3 hd hl hz)
    (fun u v d hd hl hv hs => Sim800.down_noise p hr0 ht0 hn0 i3 hd hl hv hs) h0 hrest
  rw [e0] at h1
  have v1 := exec_inv (step := Sim800.step p) (ok := fun _ => True) (I := Sim800.Inv) (fun d op _ h => Sim800.step_inv p op h) v0 (hearAll n rest) fun _ _ => trivial
  have k1 := Sim800.idLen_exec p v0 k0 (hearAll n rest)
  rw [exec_append]
  generalize exec (Sim800.step p) d0 (hearAll n rest) = d1 at h1 v1 k1
  obtain ⟨c, a0, a1, _, e1, e2, hI, hm, h1⟩ := Sim800.tours_ok p ts (n := n) hr0 ht0 hn0 i3 i4 v1 ⟨h1, k1⟩ (by rw [i2]; exact hts)
  rw [List.nil_append] at h1
  have hr : 60 ≤ c.rx := by rw [e1]; exact hr0
  have ht : 20 ≤ c.tx := by rw [e2]; exact ht0
  have hx : c.tx ≤ n := by rw [e2]; exact hn0
  have hf2 : Fits800 c.tx a r := by rw [e2, i2]; exact hf
  have h2 := Sim800.connect_ok p (n := n) hr ht hx hI hm hf2.peer hf2.name hf2.texts hf2.host h1.1 v.dial hb hst
  rw [exec_append]
  have k6 := h2.1.told.all
  exact ⟨isConnected_of h2.1.cs, k6.2, k6.1.trans (by simp [Sim800.iccidCommand])⟩

/-! ### Espressif -/

/-- C71, Espressif: the modem is detected. -/
theorem C71_espressif (p : Platform) {rxm txm : List Byte} {n : Nat} (hrx : 60 ≤ rxm.length) (htx : 20 ≤ txm.length) (hn : txm.length ≤ n)
    {s : Search} (hs : s.Ok findEsp) :
    let m := execD p (ModemDetect.init (Ser.init rxm txm [])) (s.ops n)
    modemDetected m = true ∧ m.ser.sent = b!"AT+CGMM\r\n" ++ b!"AT+GMR\r\n" ∧ m.modem = none := by
  intro m
  have h := search_esp p hrx htx hn rfl rfl hs
  exact ⟨by unfold modemDetected; rw [h.det]; rfl, h.said, h.modem⟩

/-- C71, Espressif: the driver for it connects. -/
theorem C71_espressif_used (p : Platform) {rxm txm : List Byte} {n : Nat} (hrx : 60 ≤ rxm.length) (htx : 20 ≤ txm.length) (hn : txm.length ≤ n)
    {s : Search} (hs : s.Ok findEsp) {b : Mems} (hl : b.line.length = 61) (hmac : ¬ (p.charSigned = false ∧ b.mac.getD 1 0 = 255 ∧ b.mac.getD 0 0 = 0)) (hlen : b.mac.length = 18)
    {rest : List Spoken} (hrest : ∀ y ∈ rest, y.Is (fun l => Clear errorsEsp l ∧ Spec.plain b.typ l))
    {ts : List (Tour (Wifi) MacQ)} (hts : ∀ t ∈ ts, TourEsp p txm.length t)
    {a : Wifi} {r : Peer} (hf : FitsEsp txm.length a r) {v : Visit} (hb : Dialogue (openEsp a r) v.up) (hst : ∀ y ∈ v.stay, y.Is (stayEsp r)) :
    ∃ d, (execD p (ModemDetect.init (Ser.init rxm txm [])) (s.ops n ++
        .get b :: (hearAll n rest ++ (tours setupEsp MacQ.op n ts ++ enter setupEsp n a r v)).map via)).modem = some (.espressif d) ∧
      d.isConnected = true ∧ Whole d.trace ∧
      utter d.trace = ts.flatMap (Tour.says helloEsp byeEsp MacQ.sayEsp) ++ (b!"ATE0\r\n" :: says (openEsp a r)) := by
  have h := search_esp p hrx htx hn rfl rfl hs
  rw [execD_append]
  generalize execD p (ModemDetect.init (Ser.init rxm txm [])) (s.ops n) = m at h
  have hc := h.ser
  have hfr := h.free (by rw [h.det]; decide) (by rw [h.det]; decide)
  have hg : (getDetectedModem m b).modem = some (.espressif { Espressif.init m.ser b.rmem b.wmem b.typ b.line b.mac b.ssid b.passwd with isOpen := true }) := by
    unfold getDetectedModem MD.serial MD.serialOpen
    rw [h.modem, h.det, h.isOpen]
    rfl
  show ∃ d, (execD p (getDetectedModem m b) _).modem = _ ∧ _
  rw [forward_esp p hg]
  refine ⟨_, rfl, ?_⟩
  have v0 : Espressif.Inv _ := Espressif.made_inv (s := m.ser) (rmem := b.rmem) (wmem := b.wmem) (ty := b.typ) (line := b.line) (mac := b.mac) (ssid := b.ssid) (passwd := b.passwd) hc hl
  have h0 := Espressif.made_ok (p := p) (s := m.ser) (rmem := b.rmem) (wmem := b.wmem) (ty := b.typ) (line := b.line) (mac := b.mac) (ssid := b.ssid) (passwd := b.passwd) hc hfr hl hmac
  generalize hd : ({ Espressif.init m.ser b.rmem b.wmem b.typ b.line b.mac b.ssid b.passwd with isOpen := true } : Espressif.D) = d0 at v0 h0
  have k0 : d0.ext.mac.cells.length = 18 := by rw [← hd]; exact hlen
  generalize eC : Conf.start rxm.length txm.length b.wmem.length b.rmem.length b.typ = C at h0
  have i0 : C.rx = rxm.length ∧ C.tx = txm.length ∧ C.Idle ∧ C.part = [] ∧ C.typ = b.typ := by subst eC; exact ⟨rfl, rfl, ⟨rfl, rfl, rfl⟩, rfl, rfl⟩
  obtain ⟨i1, i2, i3, i4, i5⟩ := i0
  have e0 := Conf.mid_nil i4
  rw [← e0] at h0
  have hr0 : 60 ≤ C.rx := by rw [i1]; exact hrx
  have ht0 : 20 ≤ C.tx := by rw [i2]; exact htx
  have hn0 : C.tx ≤ n := by rw [i2]; exact hn
  have h1 := exec_hearAll (step := Espressif.step p) (n := n) (P := fun u => Espressif.Down p (C.mid u) none [] []) Espressif.step_irq
    (fun u d hd => Espressif.down_idle (c := C.mid u) p hr0 ht0 hn0 i3 hd)
    (fun u v z d hd hl hz ho => Espressif.down_more p hr0 ht0 hn0 i3 hd hl hz (by rw [i5]; exact ho.2))
    (fun u v d hd hl hv hs => Espressif.down_noise p hr0 ht0 hn0 i3 hd hl hv ⟨hs.1, by rw [i5]; exact hs.2⟩) h0 hrest
  rw [e0] at h1
  have v1 := exec_inv (step := Espressif.step p) (ok := fun _ => True) (I := Espressif.Inv) (fun d op _ h => Espressif.step_inv p op h) v0 (hearAll n rest) fun _ _ => trivial
  have k1 := Espressif.macLen_exec p v0 k0 (hearAll n rest)
  rw [exec_append]
  generalize exec (Espressif.step p) d0 (hearAll n rest) = d1 at h1 v1 k1
  obtain ⟨c, a0, _, e1, e2, hI, hm, h1⟩ := Espressif.tours_ok p ts (n := n) hr0 ht0 hn0 i3 i4 v1 ⟨h1, k1⟩ (by rw [i2]; exact hts)
  rw [List.nil_append] at h1
  have hr : 60 ≤ c.rx := by rw [e1]; exact hr0
  have ht : 20 ≤ c.tx := by rw [e2]; exact ht0
  have hx : c.tx ≤ n := by rw [e2]; exact hn0
  have hf2 : FitsEsp c.tx a r := by rw [e2, i2]; exact hf
  have h2 := Espressif.connect_ok p (n := n) hr ht hx hI hm hf2.peer hf2.wifi hf2.texts h1.1 v.dial hb hst
  rw [exec_append]
  have k6 := h2.1.told.all
  exact ⟨isConnected_of h2.1.cs, k6.2, k6.1.trans (by simp)⟩

/-! ### CC1352P7 -/

/-- C71, CC1352P7: the modem is detected. -/
theorem C71_cc1352p7 (p : Platform) {rxm txm : List Byte} {n : Nat} (hrx : 60 ≤ rxm.length) (htx : 20 ≤ txm.length) (hn : txm.length ≤ n)
    {s : Search} (hs : s.Ok findCC) :
    let m := execD p (ModemDetect.init (Ser.init rxm txm [])) (s.ops n)
    modemDetected m = true ∧ m.ser.sent = b!"AT+CGMM\r\n" ∧ m.modem = none := by
  intro m
  have h := search_cc p hrx htx hn rfl rfl hs
  exact ⟨by unfold modemDetected; rw [h.det]; rfl, h.said, h.modem⟩

/-- C71, CC1352P7: the driver for it connects. -/
theorem C71_cc1352p7_used (p : Platform) {rxm txm : List Byte} {n : Nat} (hrx : 60 ≤ rxm.length) (htx : 20 ≤ txm.length) (hn : txm.length ≤ n)
    {s : Search} (hs : s.Ok findCC) {b : Mems} (hl : b.line.length = 61) (hmac : ¬ (p.charSigned = false ∧ b.mac.getD 1 0 = 255 ∧ b.mac.getD 0 0 = 0)) (hlen : b.mac.length = 24)
    {rest : List Spoken} (hrest : ∀ y ∈ rest, y.Is (Clear [b!"ERROR"]))
    {ts : List (Tour (Unit) MacQ)} (hts : ∀ t ∈ ts, TourCC p txm.length t)
    {r : Peer} (hf : FitsCC txm.length r) {v : Visit} (hb : Dialogue (openCC r) v.up) (hst : ∀ y ∈ v.stay, y.Is stayCC) :
    ∃ d, (execD p (ModemDetect.init (Ser.init rxm txm [])) (s.ops n ++
        .get b :: (hearAll n rest ++ (tours (fun _ => setupCC) MacQ.op n ts ++ enter (fun _ => setupCC) n () r v)).map via)).modem = some (.cc1352p7 d) ∧
      d.isConnected = true ∧ Whole d.trace ∧
      utter d.trace = ts.flatMap (Tour.says helloCC byeCC MacQ.sayCC) ++ (b!"ATE0\r\n" :: says (openCC r)) := by
  have h := search_cc p hrx htx hn rfl rfl hs
  rw [execD_append]
  generalize execD p (ModemDetect.init (Ser.init rxm txm [])) (s.ops n) = m at h
  have hc := h.ser
  have hfr := h.free (by rw [h.det]; decide) (by rw [h.det]; decide)
  have hg : (getDetectedModem m b).modem = some (.cc1352p7 { CC1352P7.init m.ser b.rmem b.wmem b.typ b.line b.mac with isOpen := true }) := by
    unfold getDetectedModem MD.serial MD.serialOpen
    rw [h.modem, h.det, h.isOpen]
    rfl
  show ∃ d, (execD p (getDetectedModem m b) _).modem = _ ∧ _
  rw [forward_cc p hg]
  refine ⟨_, rfl, ?_⟩
  have v0 : CC1352P7.Inv _ := CC1352P7.made_inv (s := m.ser) (rmem := b.rmem) (wmem := b.wmem) (ty := b.typ) (line := b.line) (mac := b.mac) hc hl
  have h0 := CC1352P7.made_ok (p := p) (s := m.ser) (rmem := b.rmem) (wmem := b.wmem) (ty := b.typ) (line := b.line) (mac := b.mac) hc hfr hl hmac
  generalize hd : ({ CC1352P7.init m.ser b.rmem b.wmem b.typ b.line b.mac with isOpen := true } : CC1352P7.D) = d0 at v0 h0
  have k0 : d0.ext.mac.cells.length = 24 := by rw [← hd]; exact hlen
  generalize eC : Conf.start rxm.length txm.length b.wmem.length b.rmem.length b.typ = C at h0
  have i0 : C.rx = rxm.length ∧ C.tx = txm.length ∧ C.Idle ∧ C.part = [] ∧ C.typ = b.typ := by subst eC; exact ⟨rfl, rfl, ⟨rfl, rfl, rfl⟩, rfl, rfl⟩
  obtain ⟨i1, i2, i3, i4, i5⟩ := i0
  have e0 := Conf.mid_nil i4
  rw [← e0] at h0
  have hr0 : 60 ≤ C.rx := by rw [i1]; exact hrx
  have ht0 : 20 ≤ C.tx := by rw [i2]; exact htx
  have hn0 : C.tx ≤ n := by rw [i2]; exact hn
  have h1 := exec_hearAll (step := CC1352P7.step p) (n := n) (P := fun u => CC1352P7.Down p (C.mid u) [] []) CC1352P7.step_irq
    (fun u d hd => CC1352P7.down_idle (c := C.mid u) p hr0 ht0 hn0 i3 hd)
    (fun u v z d hd hl hz ho => CC1352P7.down_more p hr0 ht0 hn0 i3 hd hl hz)
    (fun u v d hd hl hv hs => CC1352P7.down_noise p hr0 ht0 hn0 i3 hd hl hv hs) h0 hrest
  rw [e0] at h1
  have v1 := exec_inv (step := CC1352P7.step p) (ok := fun _ => True) (I := CC1352P7.Inv) (fun d op _ h => CC1352P7.step_inv p op h) v0 (hearAll n rest) fun _ _ => trivial
  have k1 := CC1352P7.macLen_exec p v0 k0 (hearAll n rest)
  rw [exec_append]
  generalize exec (CC1352P7.step p) d0 (hearAll n rest) = d1 at h1 v1 k1
  obtain ⟨c, _, e1, e2, hI, hm, h1⟩ := CC1352P7.tours_ok p ts (n := n) hr0 ht0 hn0 i3 i4 v1 ⟨h1, k1⟩ (by rw [i2]; exact hts)
  rw [List.nil_append] at h1
  have hr : 60 ≤ c.rx := by rw [e1]; exact hr0
  have ht : 20 ≤ c.tx := by rw [e2]; exact ht0
  have hx : c.tx ≤ n := by rw [e2]; exact hn0
  have hf2 : FitsCC c.tx r := by rw [e2, i2]; exact hf
  have h2 := CC1352P7.connect_ok p (n := n) hr ht hx hI hm hf2.peer hf2.texts h1.1 v.dial hb hst
  rw [exec_append]
  have k6 := h2.1.told.all
  exact ⟨isConnected_of h2.1.cs, k6.2, k6.1.trans (by simp)⟩

/-! ### The rest of the answer

After the line with its name the modem confirms AT+CGMM with OK. The detector does not wait for it. -/

/-- Buffers for a driver. -/
def mems : Mems := ⟨List.replicate 8 0, List.replicate 8 0, .tcp, List.replicate 61 0, List.replicate 16 0, List.replicate 24 0, List.replicate 24 0, .uninit, .uninit⟩

/-- Does the driver of a CC1352P7 report a connection, and which commands were sent? -/
def statusCC : Option Driver → Option (Bool × List (List Byte))
  | some (.cc1352p7 d) => some (d.isConnected, utter d.trace)
  | _ => none

/-- Does the driver of a SIM7x00 report a connection? -/
def status7x00 : Option Driver → Option Bool
  | some (.sim7x00 d) => some d.isConnected
  | _ => none

/-- C71, CC1352P7: if the application connects at once, the driver takes the OK for AT+CGMM for an answer to its own
command. It reports a connection although the modem has confirmed AT+CGMM and ATE0 only; AT+CIPSTART is under way. -/
theorem C71_cc1352p7_early :
    let m := execD Sess.arm (ModemDetect.init Sess.ser) ([.run true, .start, .run true, .run true] ++ (Sess.talk b!"CC1352P7\r\n").map via)
    let g := execD Sess.arm m (.get mems :: (([.setHostPort (some b!"h") 80 .tcp, .connect, .run true, .run true] : List Op) ++ Sess.talk b!"OK\r\n").map via)
    let e := execD Sess.arm g ((Sess.talk b!"OK\r\n").map via)
    modemDetected m = true ∧
      statusCC g.modem = some (false, [b!"ATE0\r\n", b!"AT+CIPSTART=\"TCP\",\"h\",80\r\n"]) ∧
      statusCC e.modem = some (true, [b!"ATE0\r\n", b!"AT+CIPSTART=\"TCP\",\"h\",80\r\n"]) := by
  decide +kernel

/-! ### Examples

The modem says RING before, during and after the detection, in pieces. -/

open Handshake

theorem rings {idle : List Byte → Prop} (h : idle (b!"RING\r" ++ [nl])) : ∀ x ∈ [ringing 3], x.Is idle := by
  intro x hx
  rw [List.mem_singleton.mp hx]
  exact ringing_is 3 h

example : (⟨[ringing 3], 4, [⟨[ringing 3], [], b!"SIMCOM_SIM7600E\r" ++ [nl], 2⟩], [ringing 3]⟩ : Search).Ok find7x00 :=
  ⟨rings trivial, .cons (beat_ring (by decide) (by show b!"SIMCOM_SIM7600" <+: _; decide) (by show Spec.Clear _ _; unfold Spec.Clear; decide)) .nil, rings trivial⟩

example : (⟨[ringing 3], 4, [⟨[ringing 3], [], b!"SIMCOM_SIM800H\r" ++ [nl], 2⟩], [ringing 3]⟩ : Search).Ok find800 :=
  ⟨rings trivial, .cons (beat_ring (by decide) (by show b!"SIMCOM_SIM800" <+: _; decide) (by show Spec.Clear _ _; unfold Spec.Clear; decide)) .nil, rings trivial⟩

example : (⟨[ringing 3], 4, [⟨[ringing 3], [], b!"CC1352P7\r" ++ [nl], 2⟩], [ringing 3]⟩ : Search).Ok findCC :=
  ⟨rings trivial, .cons (beat_ring (by decide) (by show b!"CC1352P7" <+: _; decide) (by show Spec.Clear _ _; unfold Spec.Clear; decide)) .nil, rings trivial⟩

example : (⟨[ringing 3], 4, [⟨[ringing 3], [], b!"ERROR\r" ++ [nl], 2⟩, ⟨[ringing 3], [], b!"AT version:2.1.0.0(883f7f2)\r" ++ [nl], 2⟩, ⟨[ringing 3], [], b!"OK\r" ++ [nl], 2⟩], [ringing 3]⟩ : Search).Ok findEsp :=
  ⟨rings trivial,
    .cons (beat_ring (by decide) (by show b!"ERROR" <+: _; decide) (by show Spec.Clear _ _; unfold Spec.Clear; decide)) <|
    .cons (beat_ring (by decide) (.inr (by decide)) (by show Spec.Clear _ _; unfold Spec.Clear; decide)) <|
    .cons (beat_ring (by decide) (by show b!"OK\r\n" <+: _; decide) (by show Spec.Clear _ _; unfold Spec.Clear; decide)) .nil, rings trivial⟩

/-- The rest of the answer to AT+CGMM. -/
example : ∀ x ∈ [(⟨[(b!"", 1)], b!"OK\r" ++ [nl], 2⟩ : Spoken)], x.Is fun l => Spec.Clear errors800 l ∧ Spec.Clear [b!"ERROR"] l ∧ Spec.Clear errorsEsp l ∧ Spec.plain .tcp l := by
  intro x hx
  rw [List.mem_singleton.mp hx]
  exact ⟨by simp, line_of (t := b!"OK\r") (by decide), by unfold Spec.Clear; decide, by unfold Spec.Clear; decide, by unfold Spec.Clear; decide, .inr (by decide)⟩

/-- A whole history: detection of a SIM7x00, the rest of the answer, a connection. -/
example :
    let m := execD Sess.arm (ModemDetect.init Sess.ser) ([.run true, .start, .run true, .run true] ++ (Sess.talk b!"SIMCOM_SIM7600E\r\n").map via ++
      .get mems :: (Sess.talk b!"\r\n" ++ Sess.talk b!"OK\r\n" ++ Sess.up7x00 .tcp).map via)
    status7x00 m.modem = some true := by
  decide +kernel

end Verif.Props.Detect
