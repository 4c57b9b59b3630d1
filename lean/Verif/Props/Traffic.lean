import Verif.Lemmas.Net7x00
import Verif.Lemmas.Net800
import Verif.Lemmas.NetEsp
import Verif.Lemmas.NetCC
import Verif.Lemmas.Trips
import Verif.Props.Handshake

/-!
# C62, C63: traffic over an open connection

Driver and modem are connected back to back: what the driver sends decides what the modem answers, and what the modem says
decides what the driver does next. The application writes and reads, the server sends, and the modem says other things in
between, at any time and in any order.
-/

namespace Verif.Props.Traffic

open Verif Dev Spec

/-! ### SIM7x00 -/

section Sim7x00

variable (p : Platform) {rxm txm rmem wmem line ip id : List Byte} {ty : ConnType} {n cap : Nat}
    (hrx : 60 ≤ rxm.length) (hrx2 : rxm.length < 2 ^ 64) (htx : 44 ≤ txm.length) (htx2 : txm.length ≤ 65557) (hn : txm.length ≤ n)
    (hl : line.length = 61) (hip : ip.length = 16) (hid : 2 ≤ id.length) (hrm : rmem ≠ []) (hcap : cap < 2 ^ 31)
    {ts : List (Trip (List Byte))}
    (hts : ∀ t ∈ ts, Fits7x00 txm.length t.access t.peer ∧ t.visit.Ok (open7x00 t.access t.peer) close7x00 stay7x00 (fun _ => True))
    {a : List Byte} {r : Peer} (hf : Fits7x00 txm.length a r) (i : Nat) {bs : List Beat} (hb : Dialogue (open7x00 a r) bs)
include hrx hrx2 htx htx2 hn hl hip hid hrm hcap hts hf hb

/-- Connections were opened and closed; the last one is open. -/
theorem start7x00 :
    Joined (Sim7x00.mach r 1500) ⟨tongue7x00 r, n, cap, meaning7x00⟩ (Sim7x00.In (some a) r n 1500 cap)
      ⟨exec (Sim7x00.step p) (Sim7x00.init (Ser.init rxm txm []) rmem wmem ty line ip id)
        (.run true :: trips setup7x00 n ts ++ (setup7x00 a r ++ (dial i ++ ops n bs))), Modem.fresh, none⟩ := by
  obtain ⟨c, x, y, e0, e1, e2, hI, hm0, h1⟩ := Sim7x00.trips_ok p ts (n := n) hrx (by show 20 ≤ txm.length; omega) hn ⟨rfl, rfl, rfl⟩ rfl
    (Sim7x00.init_ok (p := p) (rmem := rmem) (wmem := wmem) (ty := ty) (fun x => by simp [x] at htx) hl hip hid) hts
  rw [List.nil_append] at h1
  have hf2 : Fits7x00 c.tx a r := by rw [e2]; exact hf
  have h2 := Sim7x00.arrive_ok p (n := n) (by rw [e1]; exact hrx) (by rw [e2]; show 20 ≤ txm.length; omega) (by rw [e2]; exact hn) hI hm0
    hf2.peer hf2.texts hf2.host h1 i (Nat.le_refl 9) (by show Dialogue ((open7x00 a r).take (open7x00 a r).length) bs; rw [List.take_length]; exact hb)
  rw [← exec_append] at h2
  rw [e0 r] at h2
  have hm : (exec (Sim7x00.step p) (Sim7x00.init (Ser.init rxm txm []) rmem wmem ty line ip id)
        (.run true :: trips setup7x00 n ts ++ (setup7x00 a r ++ (dial i ++ ops n bs)))).ext.maxRx = 1500 := Sim7x00.exec_maxRx p _ _
  exact Sim7x00.Up.joined (c := (Conf.start rxm.length txm.length wmem.length rmem.length ty).to r)
    ⟨hf.peer, rfl, rfl, hrx, hrx2, htx, htx2, hn, List.length_pos_iff.mpr hrm, by decide, by decide, hcap⟩ hm h2 rfl rfl rfl rfl rfl rfl rfl rfl

/-- C62, SIM7x00. -/
theorem C62_sim7x00 (as : List Act) (ha : ∀ x ∈ as, Fair meaning7x00 x) :
    let d := exec (Sim7x00.step p) (Sim7x00.init (Ser.init rxm txm []) rmem wmem ty line ip id)
      (.run true :: trips setup7x00 n ts ++ (setup7x00 a r ++ (dial i ++ ops n bs)))
    (World.acts ⟨tongue7x00 r, n, cap, meaning7x00⟩ (Sim7x00.step p) ⟨d, Modem.fresh, none⟩ as).Sound :=
  have f := Sim7x00.follows p (some a) r n 1500 cap
  ((start7x00 p (wmem := wmem) (ty := ty) hrx hrx2 htx htx2 hn hl hip hid hrm hcap hts hf i hb).acts f as ha).sound f

/-- C63, SIM7x00: everything is delivered. -/
theorem C63_sim7x00 (as : List Act) (ha : ∀ x ∈ as, Fair meaning7x00 x) (rs : List (List Act))
    (hf' : ∀ xs ∈ rs, ∀ x ∈ xs, Fair meaning7x00 x) :
    let d := exec (Sim7x00.step p) (Sim7x00.init (Ser.init rxm txm []) rmem wmem ty line ip id)
      (.run true :: trips setup7x00 n ts ++ (setup7x00 a r ++ (dial i ++ ops n bs)))
    let w := World.acts ⟨tongue7x00 r, n, cap, meaning7x00⟩ (Sim7x00.step p) ⟨d, Modem.fresh, none⟩ as
    Rounds ⟨tongue7x00 r, n, cap, meaning7x00⟩ (Sim7x00.step p) w rs → w.effort ≤ rs.length → (w.acts ⟨tongue7x00 r, n, cap, meaning7x00⟩ (Sim7x00.step p) rs.flatten).Settled := by
  intro d w hr hw
  have f := Sim7x00.follows p (some a) r n 1500 cap
  have h := (start7x00 p (wmem := wmem) (ty := ty) hrx hrx2 htx htx2 hn hl hip hid hrm hcap hts hf i hb).acts f as ha
  obtain ⟨s, c, T, h1, h2, h0, h3⟩ := h.settles f rs hf' hr hw
  exact h3.settled f h1 h2

/-- C63, SIM7x00: then `disconnect()` closes the connection, and everything was delivered. -/
theorem C63_sim7x00_close (as : List Act) (ha : ∀ x ∈ as, Fair meaning7x00 x) (rs : List (List Act))
    (hf' : ∀ xs ∈ rs, ∀ x ∈ xs, Fair meaning7x00 x) (j : Nat) {cs : List Beat} (hc : Dialogue close7x00 cs) :
    let d := exec (Sim7x00.step p) (Sim7x00.init (Ser.init rxm txm []) rmem wmem ty line ip id)
      (.run true :: trips setup7x00 n ts ++ (setup7x00 a r ++ (dial i ++ ops n bs)))
    let w := World.acts ⟨tongue7x00 r, n, cap, meaning7x00⟩ (Sim7x00.step p) ⟨d, Modem.fresh, none⟩ as
    let w' := w.acts ⟨tongue7x00 r, n, cap, meaning7x00⟩ (Sim7x00.step p) rs.flatten
    let d' := exec (Sim7x00.step p) w'.drv (.run true :: (hangUp j ++ ops n cs))
    Rounds ⟨tongue7x00 r, n, cap, meaning7x00⟩ (Sim7x00.step p) w rs → w.effort ≤ rs.length → d'.isIdle = true ∧ w'.modem.outbox = accepted d'.trace ∧ handed d'.trace = w'.modem.came := by
  intro d w w' d' hr hw
  have f := Sim7x00.follows p (some a) r n 1500 cap
  have h := (start7x00 p (wmem := wmem) (ty := ty) hrx hrx2 htx htx2 hn hl hip hid hrm hcap hts hf i hb).acts f as ha
  obtain ⟨s, c, T, h1, h2, h0, h3⟩ := h.settles f rs hf' hr hw
  have h4 := h3.settled f h1 h2
  have v := f.seen h1
  have e := h3.spot
  subst e
  have hI : c.Idle := ⟨h3.wq, h3.data, h3.rcv⟩
  obtain ⟨-, -, -, F1, -, F2, -, F3, -⟩ := h1.1
  have h5 := Sim7x00.leave_ok p F1 (by omega) F3 hI h0 (h1.up p hI) j hc (xs := []) (by simp)
  have e : d' = exec (Sim7x00.step p) (Sim7x00.step p w'.drv (.run true)) (hangUp j ++ ops n cs ++ hearAll n []) := by
    show exec _ _ _ = exec _ _ (_ ++ [])
    rw [List.append_nil]; rfl
  rw [← e] at h5
  have h6 := h5.1.told
  obtain ⟨new, x, -, -, h7, h8⟩ := h6
  rw [List.nil_append] at x
  refine ⟨isIdle_of h5.1.cs, ?_, ?_⟩
  · rw [x, h7, ← v.took]; exact h4.out
  · rw [x, h8, ← v.gave]; exact h4.came

end Sim7x00

/-! ### SIM800 -/

section Sim800

variable (p : Platform) {rxm txm rmem wmem line ip id : List Byte} {ty : ConnType} {n cap : Nat}
    (hrx : 60 ≤ rxm.length) (hrx2 : rxm.length < 2 ^ 64) (htx : 28 ≤ txm.length) (htx2 : txm.length ≤ 65557) (hn : txm.length ≤ n)
    (hl : line.length = 61) (hip : ip.length = 16) (hid : 2 ≤ id.length) (hrm : rmem ≠ []) (hcap : cap < 2 ^ 31)
    {ts : List (Trip (List Byte))}
    (hts : ∀ t ∈ ts, Fits800 txm.length t.access t.peer ∧ t.visit.Ok (open800 t.access t.peer) close800 stay800 (Clear errors800))
    {a : List Byte} {r : Peer} (hf : Fits800 txm.length a r) (i : Nat) {bs : List Beat} (hb : Dialogue (open800 a r) bs)
include hrx hrx2 htx htx2 hn hl hip hid hrm hcap hts hf hb

/-- Connections were opened and closed; the last one is open. -/
theorem start800 :
    Joined (Sim800.mach 1460) ⟨tongue800, n, cap, meaning800⟩ (Sim800.In (some a) r n 1460 cap)
      ⟨exec (Sim800.step p) (Sim800.init (Ser.init rxm txm []) rmem wmem ty line ip id)
        (.run true :: trips setup7x00 n ts ++ (setup7x00 a r ++ (dial i ++ ops n bs))), Modem.fresh, none⟩ := by
  obtain ⟨c, x, y, e0, e1, e2, hI, hm0, h1⟩ := Sim800.trips_ok p ts (n := n) hrx (by show 20 ≤ txm.length; omega) hn ⟨rfl, rfl, rfl⟩ rfl
    (Sim800.init_ok (p := p) (rmem := rmem) (wmem := wmem) (ty := ty) (fun x => by simp [x] at htx) hl hip hid) hts
  rw [List.nil_append] at h1
  have hf2 : Fits800 c.tx a r := by rw [e2]; exact hf
  have h2 := Sim800.arrive_ok p (n := n) (by rw [e1]; exact hrx) (by rw [e2]; show 20 ≤ txm.length; omega) (by rw [e2]; exact hn) hI hm0
    hf2.peer hf2.name hf2.texts hf2.host h1 i (Nat.le_refl 9) (by show Dialogue ((open800 a r).take (open800 a r).length) bs; rw [List.take_length]; exact hb)
  rw [← exec_append] at h2
  rw [e0 r] at h2
  have hm : (exec (Sim800.step p) (Sim800.init (Ser.init rxm txm []) rmem wmem ty line ip id)
        (.run true :: trips setup7x00 n ts ++ (setup7x00 a r ++ (dial i ++ ops n bs)))).ext.maxRx = 1460 := Sim800.exec_maxRx p _ _
  exact Sim800.Up.joined (c := (Conf.start rxm.length txm.length wmem.length rmem.length ty).to r)
    ⟨hf.peer, rfl, rfl, hrx, hrx2, htx, htx2, hn, List.length_pos_iff.mpr hrm, by decide, by decide, hcap⟩ hm h2 rfl rfl rfl rfl rfl rfl rfl rfl

/-- C62, SIM800. -/
theorem C62_sim800 (as : List Act) (ha : ∀ x ∈ as, Fair meaning800 x) :
    let d := exec (Sim800.step p) (Sim800.init (Ser.init rxm txm []) rmem wmem ty line ip id)
      (.run true :: trips setup7x00 n ts ++ (setup7x00 a r ++ (dial i ++ ops n bs)))
    (World.acts ⟨tongue800, n, cap, meaning800⟩ (Sim800.step p) ⟨d, Modem.fresh, none⟩ as).Sound :=
  have f := Sim800.follows p (some a) r n 1460 cap
  ((start800 p (wmem := wmem) (ty := ty) hrx hrx2 htx htx2 hn hl hip hid hrm hcap hts hf i hb).acts f as ha).sound f

/-- C63, SIM800: everything is delivered. -/
theorem C63_sim800 (as : List Act) (ha : ∀ x ∈ as, Fair meaning800 x) (rs : List (List Act))
    (hf' : ∀ xs ∈ rs, ∀ x ∈ xs, Fair meaning800 x) :
    let d := exec (Sim800.step p) (Sim800.init (Ser.init rxm txm []) rmem wmem ty line ip id)
      (.run true :: trips setup7x00 n ts ++ (setup7x00 a r ++ (dial i ++ ops n bs)))
    let w := World.acts ⟨tongue800, n, cap, meaning800⟩ (Sim800.step p) ⟨d, Modem.fresh, none⟩ as
    Rounds ⟨tongue800, n, cap, meaning800⟩ (Sim800.step p) w rs → w.effort ≤ rs.length → (w.acts ⟨tongue800, n, cap, meaning800⟩ (Sim800.step p) rs.flatten).Settled := by
  intro d w hr hw
  have f := Sim800.follows p (some a) r n 1460 cap
  have h := (start800 p (wmem := wmem) (ty := ty) hrx hrx2 htx htx2 hn hl hip hid hrm hcap hts hf i hb).acts f as ha
  obtain ⟨s, c, T, h1, h2, h0, h3⟩ := h.settles f rs hf' hr hw
  exact h3.settled f h1 h2

/-- C63, SIM800: then `disconnect()` closes the connection, and everything was delivered. -/
theorem C63_sim800_close (as : List Act) (ha : ∀ x ∈ as, Fair meaning800 x) (rs : List (List Act))
    (hf' : ∀ xs ∈ rs, ∀ x ∈ xs, Fair meaning800 x) (j : Nat) {cs : List Beat} (hc : Dialogue close800 cs) :
    let d := exec (Sim800.step p) (Sim800.init (Ser.init rxm txm []) rmem wmem ty line ip id)
      (.run true :: trips setup7x00 n ts ++ (setup7x00 a r ++ (dial i ++ ops n bs)))
    let w := World.acts ⟨tongue800, n, cap, meaning800⟩ (Sim800.step p) ⟨d, Modem.fresh, none⟩ as
    let w' := w.acts ⟨tongue800, n, cap, meaning800⟩ (Sim800.step p) rs.flatten
    let d' := exec (Sim800.step p) w'.drv (.run true :: (hangUp j ++ ops n cs))
    Rounds ⟨tongue800, n, cap, meaning800⟩ (Sim800.step p) w rs → w.effort ≤ rs.length → d'.isIdle = true ∧ w'.modem.outbox = accepted d'.trace ∧ handed d'.trace = w'.modem.came := by
  intro d w w' d' hr hw
  have f := Sim800.follows p (some a) r n 1460 cap
  have h := (start800 p (wmem := wmem) (ty := ty) hrx hrx2 htx htx2 hn hl hip hid hrm hcap hts hf i hb).acts f as ha
  obtain ⟨s, c, T, h1, h2, h0, h3⟩ := h.settles f rs hf' hr hw
  have h4 := h3.settled f h1 h2
  have v := f.seen h1
  have e := h3.spot
  subst e
  have hI : c.Idle := ⟨h3.wq, h3.data, h3.rcv⟩
  obtain ⟨-, -, -, F1, -, F2, -, F3, -⟩ := h1.1
  have h5 := Sim800.leave_ok p F1 (by omega) F3 hI h0 (h1.up p hI) j hc (xs := []) (by simp)
  have e : d' = exec (Sim800.step p) (Sim800.step p w'.drv (.run true)) (hangUp j ++ ops n cs ++ hearAll n []) := by
    show exec _ _ _ = exec _ _ (_ ++ [])
    rw [List.append_nil]; rfl
  rw [← e] at h5
  have h6 := h5.1.told
  obtain ⟨new, x, -, -, h7, h8⟩ := h6
  rw [List.nil_append] at x
  refine ⟨isIdle_of h5.1.cs, ?_, ?_⟩
  · rw [x, h7, ← v.took]; exact h4.out
  · rw [x, h8, ← v.gave]; exact h4.came

end Sim800

/-! ### Espressif, TCP -/

section Espressif

variable (p : Platform) {rxm txm rmem wmem line mac : List Byte} {ssid passwd : CPtr} {ty : ConnType} {n cap : Nat}
    (hrx : 60 ≤ rxm.length) (hrx2 : rxm.length < 2 ^ 64) (htx : 24 ≤ txm.length) (htx2 : txm.length ≤ 65557) (hn : txm.length ≤ n)
    (hl : line.length = 61) (hmac : ¬ (p.charSigned = false ∧ mac.getD 1 0 = 255 ∧ mac.getD 0 0 = 0)) (hrm : rmem ≠ []) (hcap : cap < 2 ^ 31)
    {ts : List (Trip Wifi)}
    (hts : ∀ t ∈ ts, FitsEsp txm.length t.access t.peer ∧ t.visit.Ok (openEsp t.access t.peer) (closeEsp t.peer) (stayEsp t.peer) (restEsp t.peer))
    {a : Wifi} {r : Peer} (hf : FitsEsp txm.length a r) (hty : r.typ = .tcp) (old : Bool) (i : Nat) {bs : List Beat} (hb : Dialogue (openEsp a r) bs)
include hrx hrx2 htx htx2 hn hl hmac hrm hcap hts hf hty hb

/-- Connections were opened and closed; the last one is open. -/
theorem startEsp :
    Joined (Espressif.mach old) ⟨tongueEsp old, n, cap, meaningEsp⟩ (Espressif.In p (some a) n cap)
      ⟨exec (Espressif.step p) (Espressif.init (Ser.init rxm txm []) rmem wmem ty line mac ssid passwd)
        (.run true :: trips setupEsp n ts ++ (setupEsp a r ++ (dial i ++ ops n bs))), Modem.fresh, none⟩ := by
  obtain ⟨c, x, e0, e1, e2, hI, hm0, h1⟩ := Espressif.trips_ok p ts (n := n) hrx (by show 20 ≤ txm.length; omega) hn ⟨rfl, rfl, rfl⟩ rfl
    (Espressif.init_ok (p := p) (rmem := rmem) (wmem := wmem) (ty := ty) (fun x => by simp [x] at htx) hl hmac) hts
  rw [List.nil_append] at h1
  have hf2 : FitsEsp c.tx a r := by rw [e2]; exact hf
  have h2 := Espressif.arrive_ok p (n := n) (by rw [e1]; exact hrx) (by rw [e2]; show 20 ≤ txm.length; omega) (by rw [e2]; exact hn) hI hm0
    hf2.peer hf2.wifi hf2.texts h1 i (Nat.le_refl 7) (by show Dialogue ((openEsp a r).take (openEsp a r).length) bs; rw [List.take_length]; exact hb)
  rw [← exec_append] at h2
  rw [e0 r] at h2
  exact Espressif.Up.joined (c := (Conf.start rxm.length txm.length wmem.length rmem.length ty).to r)
    ⟨hty, hrx, hrx2, htx, htx2, hn, List.length_pos_iff.mpr hrm, hcap⟩ h2 rfl rfl rfl rfl rfl rfl rfl rfl

/-- C62, Espressif. -/
theorem C62_espressif (as : List Act) (ha : ∀ x ∈ as, Fair meaningEsp x) :
    let d := exec (Espressif.step p) (Espressif.init (Ser.init rxm txm []) rmem wmem ty line mac ssid passwd)
      (.run true :: trips setupEsp n ts ++ (setupEsp a r ++ (dial i ++ ops n bs)))
    (World.acts ⟨tongueEsp old, n, cap, meaningEsp⟩ (Espressif.step p) ⟨d, Modem.fresh, none⟩ as).Sound :=
  have f := Espressif.follows p (some a) old n cap
  ((startEsp p (wmem := wmem) (ty := ty) (ssid := ssid) (passwd := passwd) hrx hrx2 htx htx2 hn hl hmac hrm hcap hts hf hty old i hb).acts f as ha).sound f

/-- C63, Espressif: everything is delivered. -/
theorem C63_espressif (as : List Act) (ha : ∀ x ∈ as, Fair meaningEsp x) (rs : List (List Act))
    (hf' : ∀ xs ∈ rs, ∀ x ∈ xs, Fair meaningEsp x) :
    let d := exec (Espressif.step p) (Espressif.init (Ser.init rxm txm []) rmem wmem ty line mac ssid passwd)
      (.run true :: trips setupEsp n ts ++ (setupEsp a r ++ (dial i ++ ops n bs)))
    let w := World.acts ⟨tongueEsp old, n, cap, meaningEsp⟩ (Espressif.step p) ⟨d, Modem.fresh, none⟩ as
    Rounds ⟨tongueEsp old, n, cap, meaningEsp⟩ (Espressif.step p) w rs → w.effort ≤ rs.length → (w.acts ⟨tongueEsp old, n, cap, meaningEsp⟩ (Espressif.step p) rs.flatten).Settled := by
  intro d w hr hw
  have f := Espressif.follows p (some a) old n cap
  have h := (startEsp p (wmem := wmem) (ty := ty) (ssid := ssid) (passwd := passwd) hrx hrx2 htx htx2 hn hl hmac hrm hcap hts hf hty old i hb).acts f as ha
  obtain ⟨s, c, T, h1, h2, h0, h3⟩ := h.settles f rs hf' hr hw
  exact h3.settled f h1 h2

/-- C63, Espressif: then `disconnect()` closes the connection, and everything was delivered. -/
theorem C63_espressif_close (as : List Act) (ha : ∀ x ∈ as, Fair meaningEsp x) (rs : List (List Act))
    (hf' : ∀ xs ∈ rs, ∀ x ∈ xs, Fair meaningEsp x) (j : Nat) {cs : List Beat} (hc : Dialogue (closeEsp r) cs) :
    let d := exec (Espressif.step p) (Espressif.init (Ser.init rxm txm []) rmem wmem ty line mac ssid passwd)
      (.run true :: trips setupEsp n ts ++ (setupEsp a r ++ (dial i ++ ops n bs)))
    let w := World.acts ⟨tongueEsp old, n, cap, meaningEsp⟩ (Espressif.step p) ⟨d, Modem.fresh, none⟩ as
    let w' := w.acts ⟨tongueEsp old, n, cap, meaningEsp⟩ (Espressif.step p) rs.flatten
    let d' := exec (Espressif.step p) w'.drv (.run true :: (hangUp j ++ ops n cs))
    Rounds ⟨tongueEsp old, n, cap, meaningEsp⟩ (Espressif.step p) w rs → w.effort ≤ rs.length → d'.isIdle = true ∧ w'.modem.outbox = accepted d'.trace ∧ handed d'.trace = w'.modem.came := by
  intro d w w' d' hr hw
  have f := Espressif.follows p (some a) old n cap
  have h := (startEsp p (wmem := wmem) (ty := ty) (ssid := ssid) (passwd := passwd) hrx hrx2 htx htx2 hn hl hmac hrm hcap hts hf hty old i hb).acts f as ha
  obtain ⟨s, c, T, h1, h2, h0, h3⟩ := h.settles f rs hf' hr hw
  have h4 := h3.settled f h1 h2
  have v := f.seen h1
  have e := h3.spot
  subst e
  have hI : c.Idle := ⟨h3.wq, h3.data, h3.rcv⟩
  obtain ⟨F0, F1, -, F2, -, F3, -⟩ := h1.1
  have h5 := Espressif.leave_ok p F1 (by omega) F3 hI h0 (F0.trans hty.symm) (h1.up hI) j hc (xs := []) (by simp)
  have e : d' = exec (Espressif.step p) (Espressif.step p w'.drv (.run true)) (hangUp j ++ ops n cs ++ hearAll n []) := by
    show exec _ _ _ = exec _ _ (_ ++ [])
    rw [List.append_nil]; rfl
  rw [← e] at h5
  have h6 := h5.1.told
  obtain ⟨new, x, -, -, h7, h8⟩ := h6
  rw [List.nil_append] at x
  refine ⟨isIdle_of h5.1.cs, ?_, ?_⟩
  · rw [x, h7, ← v.took]; exact h4.out
  · rw [x, h8, ← v.gave]; exact h4.came

end Espressif

/-! ### CC1352P7 -/

section CC1352P7

variable (p : Platform) {rxm txm rmem wmem line mac : List Byte} {ty : ConnType} {n cap : Nat}
    (hrx : 60 ≤ rxm.length) (hrx2 : rxm.length < 2 ^ 64) (htx : 24 ≤ txm.length) (htx2 : txm.length ≤ 65557) (hn : txm.length ≤ n)
    (hl : line.length = 61) (hmac : ¬ (p.charSigned = false ∧ mac.getD 1 0 = 255 ∧ mac.getD 0 0 = 0)) (hrm : rmem ≠ []) (hcap : cap < 2 ^ 31)
    {ts : List (Trip Unit)}
    (hts : ∀ t ∈ ts, FitsCC txm.length t.peer ∧ t.visit.Ok (openCC t.peer) closeCC stayCC (Clear [b!"ERROR"]))
    {r : Peer} (hf : FitsCC txm.length r) (i : Nat) {bs : List Beat} (hb : Dialogue (openCC r) bs)
include hrx hrx2 htx htx2 hn hl hmac hrm hcap hts hf hb

/-- Connections were opened and closed; the last one is open. -/
theorem startCC :
    Joined (CC1352P7.mach) ⟨tongueCC, n, cap, meaningCC⟩ (CC1352P7.In p n cap)
      ⟨exec (CC1352P7.step p) (CC1352P7.init (Ser.init rxm txm []) rmem wmem ty line mac)
        (.run true :: trips (fun _ => setupCC) n ts ++ (setupCC r ++ (dial i ++ ops n bs))), Modem.fresh, none⟩ := by
  obtain ⟨c, e0, e1, e2, hI, hm0, h1⟩ := CC1352P7.trips_ok p ts (n := n) hrx (by show 20 ≤ txm.length; omega) hn ⟨rfl, rfl, rfl⟩ rfl
    (CC1352P7.init_ok (p := p) (rmem := rmem) (wmem := wmem) (ty := ty) (fun x => by simp [x] at htx) hl hmac) hts
  rw [List.nil_append] at h1
  have hf2 : FitsCC c.tx r := by rw [e2]; exact hf
  have h2 := CC1352P7.arrive_ok p (n := n) (by rw [e1]; exact hrx) (by rw [e2]; show 20 ≤ txm.length; omega) (by rw [e2]; exact hn) hI hm0
    hf2.peer hf2.texts h1 i (Nat.le_refl 2) (by show Dialogue ((openCC r).take (openCC r).length) bs; rw [List.take_length]; exact hb)
  rw [← exec_append] at h2
  rw [e0 r] at h2
  exact CC1352P7.Up.joined (c := (Conf.start rxm.length txm.length wmem.length rmem.length ty).to r)
    ⟨hrx, hrx2, htx, htx2, hn, List.length_pos_iff.mpr hrm, hcap⟩ h2 rfl rfl rfl rfl rfl rfl rfl rfl

/-- C62, CC1352P7. -/
theorem C62_cc1352p7 (as : List Act) (ha : ∀ x ∈ as, Fair meaningCC x) :
    let d := exec (CC1352P7.step p) (CC1352P7.init (Ser.init rxm txm []) rmem wmem ty line mac)
      (.run true :: trips (fun _ => setupCC) n ts ++ (setupCC r ++ (dial i ++ ops n bs)))
    (World.acts ⟨tongueCC, n, cap, meaningCC⟩ (CC1352P7.step p) ⟨d, Modem.fresh, none⟩ as).Sound :=
  have f := CC1352P7.follows p n cap
  ((startCC p (wmem := wmem) (ty := ty) hrx hrx2 htx htx2 hn hl hmac hrm hcap hts hf i hb).acts f as ha).sound f

/-- C63, CC1352P7: everything is delivered. -/
theorem C63_cc1352p7 (as : List Act) (ha : ∀ x ∈ as, Fair meaningCC x) (rs : List (List Act))
    (hf' : ∀ xs ∈ rs, ∀ x ∈ xs, Fair meaningCC x) :
    let d := exec (CC1352P7.step p) (CC1352P7.init (Ser.init rxm txm []) rmem wmem ty line mac)
      (.run true :: trips (fun _ => setupCC) n ts ++ (setupCC r ++ (dial i ++ ops n bs)))
    let w := World.acts ⟨tongueCC, n, cap, meaningCC⟩ (CC1352P7.step p) ⟨d, Modem.fresh, none⟩ as
    Rounds ⟨tongueCC, n, cap, meaningCC⟩ (CC1352P7.step p) w rs → w.effort ≤ rs.length → (w.acts ⟨tongueCC, n, cap, meaningCC⟩ (CC1352P7.step p) rs.flatten).Settled := by
  intro d w hr hw
  have f := CC1352P7.follows p n cap
  have h := (startCC p (wmem := wmem) (ty := ty) hrx hrx2 htx htx2 hn hl hmac hrm hcap hts hf i hb).acts f as ha
  obtain ⟨s, c, T, h1, h2, h0, h3⟩ := h.settles f rs hf' hr hw
  exact h3.settled f h1 h2

/-- C63, CC1352P7: then `disconnect()` closes the connection, and everything was delivered. -/
theorem C63_cc1352p7_close (as : List Act) (ha : ∀ x ∈ as, Fair meaningCC x) (rs : List (List Act))
    (hf' : ∀ xs ∈ rs, ∀ x ∈ xs, Fair meaningCC x) (j : Nat) {cs : List Beat} (hc : Dialogue closeCC cs) :
    let d := exec (CC1352P7.step p) (CC1352P7.init (Ser.init rxm txm []) rmem wmem ty line mac)
      (.run true :: trips (fun _ => setupCC) n ts ++ (setupCC r ++ (dial i ++ ops n bs)))
    let w := World.acts ⟨tongueCC, n, cap, meaningCC⟩ (CC1352P7.step p) ⟨d, Modem.fresh, none⟩ as
    let w' := w.acts ⟨tongueCC, n, cap, meaningCC⟩ (CC1352P7.step p) rs.flatten
    let d' := exec (CC1352P7.step p) w'.drv (.run true :: (hangUp j ++ ops n cs))
    Rounds ⟨tongueCC, n, cap, meaningCC⟩ (CC1352P7.step p) w rs → w.effort ≤ rs.length → d'.isIdle = true ∧ w'.modem.outbox = accepted d'.trace ∧ handed d'.trace = w'.modem.came := by
  intro d w w' d' hr hw
  have f := CC1352P7.follows p n cap
  have h := (startCC p (wmem := wmem) (ty := ty) hrx hrx2 htx htx2 hn hl hmac hrm hcap hts hf i hb).acts f as ha
  obtain ⟨s, c, T, h1, h2, h0, h3⟩ := h.settles f rs hf' hr hw
  have h4 := h3.settled f h1 h2
  have v := f.seen h1
  have e := h3.spot
  subst e
  have hI : c.Idle := ⟨h3.wq, h3.data, h3.rcv⟩
  obtain ⟨F1, -, F2, -, F3, -⟩ := h1.1
  have h5 := CC1352P7.leave_ok p F1 (by omega) F3 hI h0 (h1.up hI) j hc (xs := []) (by simp)
  have e : d' = exec (CC1352P7.step p) (CC1352P7.step p w'.drv (.run true)) (hangUp j ++ ops n cs ++ hearAll n []) := by
    show exec _ _ _ = exec _ _ (_ ++ [])
    rw [List.append_nil]; rfl
  rw [← e] at h5
  have h6 := h5.1.told
  obtain ⟨new, x, -, -, h7, h8⟩ := h6
  rw [List.nil_append] at x
  refine ⟨isIdle_of h5.1.cs, ?_, ?_⟩
  · rw [x, h7, ← v.took]; exact h4.out
  · rw [x, h8, ← v.gave]; exact h4.came

end CC1352P7

/-! ### The hypotheses can be met

The connection is that of the examples for C44. The application writes, the server sends more than fits into the read buffer,
in two parts; the modem says "RING" in between and gives blocks in pieces of three bytes. Lines arrive in pieces. -/

def round : List Act :=
  [.noise b!"RING\r\n", .pass 2, .pass 60, .tell, .run, .pass 3, .read 1, .pass 60, .speak, .pass 0, .pass 4, .run, .pass 60, .give 2, .read 4]

/-- A way to see that something is a round. -/
theorem round_of {S R X : Type} {c : Scene} {step : Dev S R X → Op → Dev S R X} {w : World (Dev S R X)} {as : List Act} (i j k : Nat)
    (h : as.all Act.still && decide (Act.run ∈ as) && decide (Act.read 1 ∈ as) && decide (as[i]? = some .tell) &&
      decide (as[j]? = some .speak) && decide (as[k]? = some (.give 2)) && (w.acts c step (as.take i)).under.isNone &&
      (w.acts c step (as.take j)).under.isNone && (w.acts c step (as.take k)).under.isNone && (w.acts c step as).under.isNone = true) :
    Round c step w as := by
  simp only [Bool.and_eq_true, decide_eq_true_eq, List.all_eq_true, Option.isNone_iff_eq_none] at h
  obtain ⟨⟨⟨⟨⟨⟨⟨⟨⟨h1, h2⟩, h3⟩, h4⟩, h5⟩, h6⟩, h7⟩, h8⟩, h9⟩, h10⟩ := h
  have key : ∀ i a, as[i]? = some a → ∃ v, as = as.take i ++ a :: v := fun i a e => by
    obtain ⟨hi, e⟩ := List.getElem?_eq_some_iff.mp e
    exact ⟨as.drop (i + 1), by rw [← e, List.getElem_cons_drop, List.take_append_drop]⟩
  obtain ⟨v4, e4⟩ := key _ _ h4
  obtain ⟨v5, e5⟩ := key _ _ h5
  obtain ⟨v6, e6⟩ := key _ _ h6
  exact ⟨h1, h2, ⟨1, by decide, h3⟩, ⟨_, _, v4, e4, rfl, h7⟩, ⟨_, _, v5, e5, rfl, h8⟩, ⟨_, _, v6, e6, ⟨2, rfl⟩, h9⟩, h10⟩

/-- Some times the round above. -/
theorem rounds_of {S R X : Type} {c : Scene} {step : Dev S R X → Op → Dev S R X} {w : World (Dev S R X)} (n : Nat)
    (h : ∀ k < n, Round c step (w.acts c step (List.replicate k round).flatten) round) : Rounds c step w (List.replicate n round) := by
  induction n generalizing w with
  | zero => exact .nil
  | succ n ih =>
    refine .cons (h 0 (Nat.zero_lt_succ _)) (ih fun k hk => ?_)
    have := h (k + 1) (by omega)
    rw [List.replicate_succ, List.flatten_cons] at this
    unfold World.acts at this ⊢
    rwa [List.foldl_append] at this

/-- In every situation there is a round, without a line that has nothing to do with the connection. -/
theorem exists_round {S R X : Type} (c : Scene) (step : Dev S R X → Op → Dev S R X) (w : World (Dev S R X)) :
    ∃ as, Round c step w as ∧ ∀ a ∈ as, Fair c.meaning a := by
  have key : ∀ w : World (Dev S R X), ∃ k, (w.act c step (.pass k)).under = none := fun w => by
    cases hu : w.under with
    | none => exact ⟨0, by simp only [World.act, hu]⟩
    | some x =>
      refine ⟨x.2.length, ?_⟩
      simp only [World.act, hu]
      rw [if_pos (List.drop_eq_nil_of_le (by omega))]
      rfl
  obtain ⟨k1, h1⟩ := key w
  obtain ⟨k2, h2⟩ := key (w.acts c step [.pass k1, .run, .read 1, .tell])
  obtain ⟨k3, h3⟩ := key (w.acts c step [.pass k1, .run, .read 1, .tell, .pass k2, .speak])
  have h4 : ∀ w : World (Dev S R X), w.under = none → (w.act c step (.give 0)).under = none := fun w hw => by
    simp only [World.act, hw]
    split
    · rfl
    · exact hw
  refine ⟨[.pass k1, .run, .read 1, .tell, .pass k2, .speak, .pass k3, .give 0], ⟨by simp [Act.still], by simp, ⟨1, by decide, by simp⟩,
    ⟨[.pass k1, .run, .read 1], _, _, rfl, rfl, h1⟩, ⟨[.pass k1, .run, .read 1, .tell, .pass k2], _, _, rfl, rfl, h2⟩,
    ⟨[.pass k1, .run, .read 1, .tell, .pass k2, .speak, .pass k3], _, _, rfl, ⟨0, rfl⟩, h3⟩, h4 _ h3⟩, ?_⟩
  intro a ha
  simp only [List.mem_cons, List.not_mem_nil, or_false] at ha
  rcases ha with rfl | rfl | rfl | rfl | rfl | rfl | rfl | rfl <;> trivial

/-- In every situation there are as many rounds as one likes. -/
theorem exists_rounds {S R X : Type} (c : Scene) (step : Dev S R X → Op → Dev S R X) (n : Nat) (w : World (Dev S R X)) :
    ∃ rs, rs.length = n ∧ Rounds c step w rs ∧ ∀ as ∈ rs, ∀ a ∈ as, Fair c.meaning a := by
  induction n generalizing w with
  | zero => exact ⟨[], rfl, .nil, by simp⟩
  | succ n ih =>
    obtain ⟨as, h1, h2⟩ := exists_round c step w
    obtain ⟨rs, h3, h4, h5⟩ := ih (w.acts c step as)
    refine ⟨as :: rs, by simp [h3], .cons h1 h4, fun x hx => ?_⟩
    rcases List.mem_cons.mp hx with rfl | hx
    · exact h2
    · exact h5 x hx

example {S R X : Type} (c : Scene) (step : Dev S R X → Op → Dev S R X) (w : World (Dev S R X)) :
    ∃ rs, Rounds c step w rs ∧ (∀ as ∈ rs, ∀ a ∈ as, Fair c.meaning a) ∧ w.effort ≤ rs.length :=
  let ⟨rs, h1, h2, h3⟩ := exists_rounds c step w.effort w
  ⟨rs, h2, h3, Nat.le_of_eq h1.symm⟩

def chatter : List Act :=
  [.write b!"HELLO", .write b!" AGAIN", .run, .net b!"WORLD 1" false, .speak, .pass 0, .net b!"WORLD 2" true, .tell, .pass 3, .run,
    .pass 60, .noise b!"RING\r\n", .pass 1]

theorem chatter_fair {m : List (List Byte)} (h : ∀ w ∈ m, ¬ w <+: b!"RING\r\n") : ∀ x ∈ chatter, Fair m x := by
  intro x hx
  simp only [chatter, List.mem_cons, List.not_mem_nil, or_false] at hx
  rcases hx with rfl | rfl | rfl | rfl | rfl | rfl | rfl | rfl | rfl | rfl | rfl | rfl | rfl <;> first | trivial | skip
  exact ⟨⟨by decide, b!"RING\r", rfl, by decide, by decide, by decide⟩, h⟩

example : ∀ m ∈ [meaning7x00, meaning800, meaningEsp, meaningCC], ∀ x ∈ chatter, Fair m x :=
  fun m hm => chatter_fair (by
    simp only [List.mem_cons, List.not_mem_nil, or_false] at hm
    rcases hm with rfl | rfl | rfl | rfl <;> decide)

def some7x00 (q : Peer) : World Sim7x00.D :=
  ⟨exec (Sim7x00.step ⟨true, true⟩) (Sim7x00.init (Ser.init (List.replicate 60 0) (List.replicate 80 0) []) (List.replicate 8 0)
    (List.replicate 12 0) .tcp (List.replicate 61 0) (List.replicate 16 0) (List.replicate 22 0))
    (.run true :: setup7x00 b!"internet" q ++ (dial 2 ++ ops 80 (Handshake.trip7x00 q).visit.up)), Modem.fresh, none⟩

example : ∀ q ∈ [Handshake.server, Handshake.other],
    let w := ((some7x00 q).acts ⟨tongue7x00 q, 80, 100, meaning7x00⟩ (Sim7x00.step ⟨true, true⟩) chatter)
    let w' := w.acts ⟨tongue7x00 q, 80, 100, meaning7x00⟩ (Sim7x00.step ⟨true, true⟩) (List.replicate 13 round).flatten
    w.modem.outbox = b!"HELLO AGAIN" ∧ handed w.drv.trace = [] ∧ w.drv.isConnected = true ∧
      w'.modem.outbox = b!"HELLO AGAIN" ∧ handed w'.drv.trace = b!"WORLD 1WORLD 2" ∧ w.under = some (.noise b!"RING\r\n", b!"NG\r\n") := by
  decide +kernel

example : ∀ q ∈ [Handshake.server, Handshake.other], Rounds ⟨tongue7x00 q, 80, 100, meaning7x00⟩ (Sim7x00.step ⟨true, true⟩) ((some7x00 q).acts ⟨tongue7x00 q, 80, 100, meaning7x00⟩ (Sim7x00.step ⟨true, true⟩) chatter) (List.replicate 2 round) := by
  intro q hq
  refine rounds_of 2 fun k hk => round_of 3 8 13 ?_
  revert q k
  decide +kernel

def some800 (q : Peer) : World Sim800.D :=
  ⟨exec (Sim800.step ⟨true, true⟩) (Sim800.init (Ser.init (List.replicate 60 0) (List.replicate 80 0) []) (List.replicate 8 0)
    (List.replicate 12 0) .tcp (List.replicate 61 0) (List.replicate 16 0) (List.replicate 22 0))
    (.run true :: setup7x00 b!"internet" q ++ (dial 2 ++ ops 80 (Handshake.trip800 q).visit.up)), Modem.fresh, none⟩

example : ∀ q ∈ [Handshake.server, Handshake.other],
    let w := ((some800 q).acts ⟨tongue800, 80, 100, meaning800⟩ (Sim800.step ⟨true, true⟩) chatter)
    let w' := w.acts ⟨tongue800, 80, 100, meaning800⟩ (Sim800.step ⟨true, true⟩) (List.replicate 13 round).flatten
    w.modem.outbox = b!"HELLO AGAIN" ∧ handed w.drv.trace = [] ∧ w.drv.isConnected = true ∧
      w'.modem.outbox = b!"HELLO AGAIN" ∧ handed w'.drv.trace = b!"WORLD 1WORLD 2" ∧ w.under = some (.noise b!"RING\r\n", b!"NG\r\n") := by
  decide +kernel

example : ∀ q ∈ [Handshake.server, Handshake.other], Rounds ⟨tongue800, 80, 100, meaning800⟩ (Sim800.step ⟨true, true⟩) ((some800 q).acts ⟨tongue800, 80, 100, meaning800⟩ (Sim800.step ⟨true, true⟩) chatter) (List.replicate 2 round) := by
  intro q hq
  refine rounds_of 2 fun k hk => round_of 3 8 13 ?_
  revert q k
  decide +kernel

def someEsp : World Espressif.D :=
  ⟨exec (Espressif.step ⟨true, true⟩) (Espressif.init (Ser.init (List.replicate 60 0) (List.replicate 80 0) []) (List.replicate 8 0)
    (List.replicate 12 0) .tcp (List.replicate 61 0) (List.replicate 18 0) .null .null)
    (.run true :: setupEsp Handshake.home Handshake.server ++ (dial 2 ++ ops 80 (Handshake.tripEsp Handshake.server).visit.up)), Modem.fresh, none⟩

example : ∀ old,
    let w := (someEsp.acts ⟨tongueEsp old, 80, 100, meaningEsp⟩ (Espressif.step ⟨true, true⟩) chatter)
    let w' := w.acts ⟨tongueEsp old, 80, 100, meaningEsp⟩ (Espressif.step ⟨true, true⟩) (List.replicate 13 round).flatten
    w.modem.outbox = b!"HELLO AGAIN" ∧ handed w.drv.trace = [] ∧ w.drv.isConnected = true ∧
      w'.modem.outbox = b!"HELLO AGAIN" ∧ handed w'.drv.trace = b!"WORLD 1WORLD 2" ∧ w.under = some (.noise b!"RING\r\n", b!"NG\r\n") := by
  decide +kernel

example : ∀ old, Rounds ⟨tongueEsp old, 80, 100, meaningEsp⟩ (Espressif.step ⟨true, true⟩) ((someEsp).acts ⟨tongueEsp old, 80, 100, meaningEsp⟩ (Espressif.step ⟨true, true⟩) chatter) (List.replicate 2 round) := by
  intro old
  refine rounds_of 2 fun k hk => round_of 3 8 13 ?_
  revert old k
  decide +kernel

def someCC (q : Peer) : World CC1352P7.D :=
  ⟨exec (CC1352P7.step ⟨true, true⟩) (CC1352P7.init (Ser.init (List.replicate 60 0) (List.replicate 80 0) []) (List.replicate 8 0)
    (List.replicate 12 0) .tcp (List.replicate 61 0) (List.replicate 24 0))
    (.run true :: setupCC q ++ (dial 2 ++ ops 80 (Handshake.tripCC q).visit.up)), Modem.fresh, none⟩

example : ∀ q ∈ [Handshake.server, Handshake.other],
    let w := ((someCC q).acts ⟨tongueCC, 80, 100, meaningCC⟩ (CC1352P7.step ⟨true, true⟩) chatter)
    let w' := w.acts ⟨tongueCC, 80, 100, meaningCC⟩ (CC1352P7.step ⟨true, true⟩) (List.replicate 13 round).flatten
    w.modem.outbox = b!"HELLO AGAIN" ∧ handed w.drv.trace = [] ∧ w.drv.isConnected = true ∧
      w'.modem.outbox = b!"HELLO AGAIN" ∧ handed w'.drv.trace = b!"WORLD 1WORLD 2" ∧ w.under = some (.noise b!"RING\r\n", b!"NG\r\n") := by
  decide +kernel

example : ∀ q ∈ [Handshake.server, Handshake.other], Rounds ⟨tongueCC, 80, 100, meaningCC⟩ (CC1352P7.step ⟨true, true⟩) ((someCC q).acts ⟨tongueCC, 80, 100, meaningCC⟩ (CC1352P7.step ⟨true, true⟩) chatter) (List.replicate 2 round) := by
  intro q hq
  refine rounds_of 2 fun k hk => round_of 3 8 13 ?_
  revert q k
  decide +kernel

end Verif.Props.Traffic
