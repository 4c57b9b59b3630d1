import Verif.Lemmas.Cable7x00
import Verif.Lemmas.Cable800
import Verif.Lemmas.CableEsp
import Verif.Lemmas.CableCC
import Verif.Props.Traffic

/-!
# C75: traffic over a cable

As C62 and C63, but driver and modem do not wait for each other: what the modem says is on its way for any time, arrives in
portions of any size, whether or not the driver has dealt with what arrived before, and `run()` is called at any time. The
cable has a flow control.
-/

namespace Verif.Props.Cable

open Verif Dev Spec Verif.Props.Traffic

/-! ### SIM7x00 -/

section Sim7x00

variable (p : Platform) {rxm txm rmem wmem line ip id : List Byte} {ty : ConnType} {n cap : Nat}
    (hrx : 60 ≤ rxm.length) (hrx2 : rxm.length < 2 ^ 64) (htx : 44 ≤ txm.length) (htx2 : txm.length ≤ 65557) (hn : txm.length ≤ n)
    (hl : line.length = 61) (hip : ip.length = 16) (hid : 2 ≤ id.length) (hrm : rmem ≠ []) (hcap : cap < 2 ^ 31)
    {ts : List (Trip (List Byte))}
    (hts : ∀ t ∈ ts, Fits7x00 txm.length t.access t.peer ∧ t.visit.Ok (open7x00 t.access t.peer) close7x00 stay7x00 (fun _ => True))
    {a : List Byte} {r : Peer} (hf : Fits7x00 txm.length a r) (i : Nat) {bs : List Beat} (hb : Dialogue (open7x00 a r) bs)
include hrx hrx2 htx htx2 hn hl hip hid hrm hcap hts hf hb

theorem string7x00 :
    Strung (Sim7x00.mach r 1500) ⟨tongue7x00 r, n, cap, meaning7x00⟩ (Sim7x00.In (some a) r n 1500 cap)
      ⟨exec (Sim7x00.step p) (Sim7x00.init (Ser.init rxm txm []) rmem wmem ty line ip id)
        (.run true :: trips setup7x00 n ts ++ (setup7x00 a r ++ (dial i ++ ops n bs))), Modem.fresh, []⟩ :=
  (start7x00 p (wmem := wmem) (ty := ty) hrx hrx2 htx htx2 hn hl hip hid hrm hcap hts hf i hb).strung

/-- C75, SIM7x00: nothing is lost. -/
theorem C75_sim7x00 (as : List Act) (ha : ∀ x ∈ as, Fair meaning7x00 x) :
    let d := exec (Sim7x00.step p) (Sim7x00.init (Ser.init rxm txm []) rmem wmem ty line ip id)
      (.run true :: trips setup7x00 n ts ++ (setup7x00 a r ++ (dial i ++ ops n bs)))
    (Cable.acts ⟨tongue7x00 r, n, cap, meaning7x00⟩ (Sim7x00.step p) ⟨d, Modem.fresh, []⟩ as).Sound :=
  have f := Sim7x00.follows p (some a) r n 1500 cap
  have e := Sim7x00.eager p (some a) r n 1500 cap
  ((string7x00 p (wmem := wmem) (ty := ty) hrx hrx2 htx htx2 hn hl hip hid hrm hcap hts hf i hb).acts f e as ha).sound f

/-- C75, SIM7x00: everything that was said is read. -/
theorem C75_sim7x00_reads (as : List Act) (ha : ∀ x ∈ as, Fair meaning7x00 x) (ks : List Nat) :
    let d := exec (Sim7x00.step p) (Sim7x00.init (Ser.init rxm txm []) rmem wmem ty line ip id)
      (.run true :: trips setup7x00 n ts ++ (setup7x00 a r ++ (dial i ++ ops n bs)))
    let w := Cable.acts ⟨tongue7x00 r, n, cap, meaning7x00⟩ (Sim7x00.step p) ⟨d, Modem.fresh, []⟩ as
    w.air.length + w.drv.ser.bytesAvailable.2 ≤ ks.length →
      (w.acts ⟨tongue7x00 r, n, cap, meaning7x00⟩ (Sim7x00.step p) (ks.flatMap fun k => [.pass k, .run])).Drained :=
  have f := Sim7x00.follows p (some a) r n 1500 cap
  have e := Sim7x00.eager p (some a) r n 1500 cap
  ((string7x00 p (wmem := wmem) (ty := ty) hrx hrx2 htx htx2 hn hl hip hid hrm hcap hts hf i hb).acts f e as ha).drains f e ks

/-- C75, SIM7x00: everything is delivered. -/
theorem C75_sim7x00_settles (as : List Act) (ha : ∀ x ∈ as, Fair meaning7x00 x) (rs : List (List Act))
    (hf' : ∀ xs ∈ rs, ∀ x ∈ xs, Fair meaning7x00 x) :
    let d := exec (Sim7x00.step p) (Sim7x00.init (Ser.init rxm txm []) rmem wmem ty line ip id)
      (.run true :: trips setup7x00 n ts ++ (setup7x00 a r ++ (dial i ++ ops n bs)))
    let w := Cable.acts ⟨tongue7x00 r, n, cap, meaning7x00⟩ (Sim7x00.step p) ⟨d, Modem.fresh, []⟩ as
    w.Rounds ⟨tongue7x00 r, n, cap, meaning7x00⟩ (Sim7x00.step p) rs → w.effort ≤ rs.length →
      (w.acts ⟨tongue7x00 r, n, cap, meaning7x00⟩ (Sim7x00.step p) rs.flatten).Settled := by
  intro d w hr hw
  have f := Sim7x00.follows p (some a) r n 1500 cap
  have e := Sim7x00.eager p (some a) r n 1500 cap
  have h := (string7x00 p (wmem := wmem) (ty := ty) hrx hrx2 htx htx2 hn hl hip hid hrm hcap hts hf i hb).acts f e as ha
  obtain ⟨-, s, c, T, h1, h2, -, h3⟩ := h.settles f e rs hf' hr hw
  exact h3.done f h1 h2

/-- C75, SIM7x00: then `disconnect()` closes the connection, and everything was delivered. -/
theorem C75_sim7x00_close (as : List Act) (ha : ∀ x ∈ as, Fair meaning7x00 x) (rs : List (List Act))
    (hf' : ∀ xs ∈ rs, ∀ x ∈ xs, Fair meaning7x00 x) (j : Nat) {cs : List Beat} (hc : Dialogue close7x00 cs) :
    let d := exec (Sim7x00.step p) (Sim7x00.init (Ser.init rxm txm []) rmem wmem ty line ip id)
      (.run true :: trips setup7x00 n ts ++ (setup7x00 a r ++ (dial i ++ ops n bs)))
    let w := Cable.acts ⟨tongue7x00 r, n, cap, meaning7x00⟩ (Sim7x00.step p) ⟨d, Modem.fresh, []⟩ as
    let w' := w.acts ⟨tongue7x00 r, n, cap, meaning7x00⟩ (Sim7x00.step p) rs.flatten
    let d' := exec (Sim7x00.step p) w'.drv (.run true :: (hangUp j ++ ops n cs))
    w.Rounds ⟨tongue7x00 r, n, cap, meaning7x00⟩ (Sim7x00.step p) rs → w.effort ≤ rs.length →
      d'.isIdle = true ∧ w'.modem.outbox = accepted d'.trace ∧ handed d'.trace = w'.modem.came := by
  intro d w w' d' hr hw
  have f := Sim7x00.follows p (some a) r n 1500 cap
  have q := Sim7x00.eager p (some a) r n 1500 cap
  have h := (string7x00 p (wmem := wmem) (ty := ty) hrx hrx2 htx htx2 hn hl hip hid hrm hcap hts hf i hb).acts f q as ha
  obtain ⟨-, s, c, T, h1, h2, h0, h3⟩ := h.settles f q rs hf' hr hw
  have h4 := h3.done f h1 h2
  have v := f.seen h1
  have e := h3.spot
  subst e
  have hI : c.Idle := ⟨h3.wq, h3.data, h3.rcv⟩
  obtain ⟨-, -, -, F1, -, F2, -, F3, -⟩ := h1.1
  have h5 := Sim7x00.leave_ok p F1 (by omega) F3 hI h0 (h1.up p hI) j hc (xs := []) (by simp)
  have e : d' = exec (Sim7x00.step p) (Sim7x00.step p w'.drv (.run true)) (hangUp j ++ ops n cs ++ hearAll n []) := by
    show exec _ _ _ = exec _ _ (_ ++ [])
    rw [List.append_nil]; rfl
  rw [← e] at h5
  have h6 := h5.1.told
  obtain ⟨new, x, -, -, h7, h8⟩ := h6
  rw [List.nil_append] at x
  refine ⟨isIdle_of h5.1.cs, ?_, ?_⟩
  · rw [x, h7, ← v.took]; exact h4.out
  · rw [x, h8, ← v.gave]; exact h4.came

/-- C75, SIM7x00: there are as many rounds as one likes. -/
theorem C75_sim7x00_rounds (as : List Act) (ha : ∀ x ∈ as, Fair meaning7x00 x) :
    let d := exec (Sim7x00.step p) (Sim7x00.init (Ser.init rxm txm []) rmem wmem ty line ip id)
      (.run true :: trips setup7x00 n ts ++ (setup7x00 a r ++ (dial i ++ ops n bs)))
    let w := Cable.acts ⟨tongue7x00 r, n, cap, meaning7x00⟩ (Sim7x00.step p) ⟨d, Modem.fresh, []⟩ as
    ∃ rs, w.Rounds ⟨tongue7x00 r, n, cap, meaning7x00⟩ (Sim7x00.step p) rs ∧ (∀ xs ∈ rs, ∀ x ∈ xs, Fair meaning7x00 x) ∧
      w.effort ≤ rs.length := by
  intro d w
  have f := Sim7x00.follows p (some a) r n 1500 cap
  have e := Sim7x00.eager p (some a) r n 1500 cap
  obtain ⟨rs, h1, h2, h3⟩ := ((string7x00 p (wmem := wmem) (ty := ty) hrx hrx2 htx htx2 hn hl hip hid hrm hcap hts hf i hb).acts f e as ha).rounds f e w.effort
  exact ⟨rs, h2, h3, Nat.le_of_eq h1.symm⟩

end Sim7x00

/-! ### SIM800 -/

section Sim800

variable (p : Platform) {rxm txm rmem wmem line ip id : List Byte} {ty : ConnType} {n cap : Nat}
    (hrx : 60 ≤ rxm.length) (hrx2 : rxm.length < 2 ^ 64) (htx : 28 ≤ txm.length) (htx2 : txm.length ≤ 65557) (hn : txm.length ≤ n)
    (hl : line.length = 61) (hip : ip.length = 16) (hid : 2 ≤ id.length) (hrm : rmem ≠ []) (hcap : cap < 2 ^ 31)
    {ts : List (Trip (List Byte))}
    (hts : ∀ t ∈ ts, Fits800 txm.length t.access t.peer ∧ t.visit.Ok (open800 t.access t.peer) close800 stay800 (Clear errors800))
    {a : List Byte} {r : Peer} (hf : Fits800 txm.length a r) (i : Nat) {bs : List Beat} (hb : Dialogue (open800 a r) bs)
include hrx hrx2 htx htx2 hn hl hip hid hrm hcap hts hf hb

theorem string800 :
    Strung (Sim800.mach 1460) ⟨tongue800, n, cap, meaning800⟩ (Sim800.In (some a) r n 1460 cap)
      ⟨exec (Sim800.step p) (Sim800.init (Ser.init rxm txm []) rmem wmem ty line ip id)
        (.run true :: trips setup7x00 n ts ++ (setup7x00 a r ++ (dial i ++ ops n bs))), Modem.fresh, []⟩ :=
  (start800 p (wmem := wmem) (ty := ty) hrx hrx2 htx htx2 hn hl hip hid hrm hcap hts hf i hb).strung

/-- C75, SIM800: nothing is lost. -/
theorem C75_sim800 (as : List Act) (ha : ∀ x ∈ as, Fair meaning800 x) :
    let d := exec (Sim800.step p) (Sim800.init (Ser.init rxm txm []) rmem wmem ty line ip id)
      (.run true :: trips setup7x00 n ts ++ (setup7x00 a r ++ (dial i ++ ops n bs)))
    (Cable.acts ⟨tongue800, n, cap, meaning800⟩ (Sim800.step p) ⟨d, Modem.fresh, []⟩ as).Sound :=
  have f := Sim800.follows p (some a) r n 1460 cap
  have e := Sim800.eager p (some a) r n 1460 cap
  ((string800 p (wmem := wmem) (ty := ty) hrx hrx2 htx htx2 hn hl hip hid hrm hcap hts hf i hb).acts f e as ha).sound f

/-- C75, SIM800: everything that was said is read. -/
theorem C75_sim800_reads (as : List Act) (ha : ∀ x ∈ as, Fair meaning800 x) (ks : List Nat) :
    let d := exec (Sim800.step p) (Sim800.init (Ser.init rxm txm []) rmem wmem ty line ip id)
      (.run true :: trips setup7x00 n ts ++ (setup7x00 a r ++ (dial i ++ ops n bs)))
    let w := Cable.acts ⟨tongue800, n, cap, meaning800⟩ (Sim800.step p) ⟨d, Modem.fresh, []⟩ as
    w.air.length + w.drv.ser.bytesAvailable.2 ≤ ks.length →
      (w.acts ⟨tongue800, n, cap, meaning800⟩ (Sim800.step p) (ks.flatMap fun k => [.pass k, .run])).Drained :=
  have f := Sim800.follows p (some a) r n 1460 cap
  have e := Sim800.eager p (some a) r n 1460 cap
  ((string800 p (wmem := wmem) (ty := ty) hrx hrx2 htx htx2 hn hl hip hid hrm hcap hts hf i hb).acts f e as ha).drains f e ks

/-- C75, SIM800: everything is delivered. -/
theorem C75_sim800_settles (as : List Act) (ha : ∀ x ∈ as, Fair meaning800 x) (rs : List (List Act))
    (hf' : ∀ xs ∈ rs, ∀ x ∈ xs, Fair meaning800 x) :
    let d := exec (Sim800.step p) (Sim800.init (Ser.init rxm txm []) rmem wmem ty line ip id)
      (.run true :: trips setup7x00 n ts ++ (setup7x00 a r ++ (dial i ++ ops n bs)))
    let w := Cable.acts ⟨tongue800, n, cap, meaning800⟩ (Sim800.step p) ⟨d, Modem.fresh, []⟩ as
    w.Rounds ⟨tongue800, n, cap, meaning800⟩ (Sim800.step p) rs → w.effort ≤ rs.length →
      (w.acts ⟨tongue800, n, cap, meaning800⟩ (Sim800.step p) rs.flatten).Settled := by
  intro d w hr hw
  have f := Sim800.follows p (some a) r n 1460 cap
  have e := Sim800.eager p (some a) r n 1460 cap
  have h := (string800 p (wmem := wmem) (ty := ty) hrx hrx2 htx htx2 hn hl hip hid hrm hcap hts hf i hb).acts f e as ha
  obtain ⟨-, s, c, T, h1, h2, -, h3⟩ := h.settles f e rs hf' hr hw
  exact h3.done f h1 h2

/-- C75, SIM800: then `disconnect()` closes the connection, and everything was delivered. -/
theorem C75_sim800_close (as : List Act) (ha : ∀ x ∈ as, Fair meaning800 x) (rs : List (List Act))
    (hf' : ∀ xs ∈ rs, ∀ x ∈ xs, Fair meaning800 x) (j : Nat) {cs : List Beat} (hc : Dialogue close800 cs) :
    let d := exec (Sim800.step p) (Sim800.init (Ser.init rxm txm []) rmem wmem ty line ip id)
      (.run true :: trips setup7x00 n ts ++ (setup7x00 a r ++ (dial i ++ ops n bs)))
    let w := Cable.acts ⟨tongue800, n, cap, meaning800⟩ (Sim800.step p) ⟨d, Modem.fresh, []⟩ as
    let w' := w.acts ⟨tongue800, n, cap, meaning800⟩ (Sim800.step p) rs.flatten
    let d' := exec (Sim800.step p) w'.drv (.run true :: (hangUp j ++ ops n cs))
    w.Rounds ⟨tongue800, n, cap, meaning800⟩ (Sim800.step p) rs → w.effort ≤ rs.length →
      d'.isIdle = true ∧ w'.modem.outbox = accepted d'.trace ∧ handed d'.trace = w'.modem.came := by
  intro d w w' d' hr hw
  have f := Sim800.follows p (some a) r n 1460 cap
  have q := Sim800.eager p (some a) r n 1460 cap
  have h := (string800 p (wmem := wmem) (ty := ty) hrx hrx2 htx htx2 hn hl hip hid hrm hcap hts hf i hb).acts f q as ha
  obtain ⟨-, s, c, T, h1, h2, h0, h3⟩ := h.settles f q rs hf' hr hw
  have h4 := h3.done f h1 h2
  have v := f.seen h1
  have e := h3.spot
  subst e
  have hI : c.Idle := ⟨h3.wq, h3.data, h3.rcv⟩
  obtain ⟨-, -, -, F1, -, F2, -, F3, -⟩ := h1.1
  have h5 := Sim800.leave_ok p F1 (by omega) F3 hI h0 (h1.up p hI) j hc (xs := []) (by simp)
  have e : d' = exec (Sim800.step p) (Sim800.step p w'.drv (.run true)) (hangUp j ++ ops n cs ++ hearAll n []) := by
    show exec _ _ _ = exec _ _ (_ ++ [])
    rw [List.append_nil]; rfl
  rw [← e] at h5
  have h6 := h5.1.told
  obtain ⟨new, x, -, -, h7, h8⟩ := h6
  rw [List.nil_append] at x
  refine ⟨isIdle_of h5.1.cs, ?_, ?_⟩
  · rw [x, h7, ← v.took]; exact h4.out
  · rw [x, h8, ← v.gave]; exact h4.came

/-- C75, SIM800: there are as many rounds as one likes. -/
theorem C75_sim800_rounds (as : List Act) (ha : ∀ x ∈ as, Fair meaning800 x) :
    let d := exec (Sim800.step p) (Sim800.init (Ser.init rxm txm []) rmem wmem ty line ip id)
      (.run true :: trips setup7x00 n ts ++ (setup7x00 a r ++ (dial i ++ ops n bs)))
    let w := Cable.acts ⟨tongue800, n, cap, meaning800⟩ (Sim800.step p) ⟨d, Modem.fresh, []⟩ as
    ∃ rs, w.Rounds ⟨tongue800, n, cap, meaning800⟩ (Sim800.step p) rs ∧ (∀ xs ∈ rs, ∀ x ∈ xs, Fair meaning800 x) ∧
      w.effort ≤ rs.length := by
  intro d w
  have f := Sim800.follows p (some a) r n 1460 cap
  have e := Sim800.eager p (some a) r n 1460 cap
  obtain ⟨rs, h1, h2, h3⟩ := ((string800 p (wmem := wmem) (ty := ty) hrx hrx2 htx htx2 hn hl hip hid hrm hcap hts hf i hb).acts f e as ha).rounds f e w.effort
  exact ⟨rs, h2, h3, Nat.le_of_eq h1.symm⟩

end Sim800

/-! ### Espressif, TCP -/

section Espressif

variable (p : Platform) {rxm txm rmem wmem line mac : List Byte} {ssid passwd : CPtr} {ty : ConnType} {n cap : Nat}
    (hrx : 60 ≤ rxm.length) (hrx2 : rxm.length < 2 ^ 64) (htx : 24 ≤ txm.length) (htx2 : txm.length ≤ 65557) (hn : txm.length ≤ n)
    (hl : line.length = 61) (hmac : ¬ (p.charSigned = false ∧ mac.getD 1 0 = 255 ∧ mac.getD 0 0 = 0)) (hrm : rmem ≠ []) (hcap : cap < 2 ^ 31)
    {ts : List (Trip Wifi)}
    (hts : ∀ t ∈ ts, FitsEsp txm.length t.access t.peer ∧ t.visit.Ok (openEsp t.access t.peer) (closeEsp t.peer) (stayEsp t.peer) (restEsp t.peer))
    {a : Wifi} {r : Peer} (hf : FitsEsp txm.length a r) (hty : r.typ = .tcp) (old : Bool) (i : Nat) {bs : List Beat} (hb : Dialogue (openEsp a r) bs)
include hrx hrx2 htx htx2 hn hl hmac hrm hcap hts hf hty hb

theorem stringEsp :
    Strung (Espressif.mach old) ⟨tongueEsp old, n, cap, meaningEsp⟩ (Espressif.In p (some a) n cap)
      ⟨exec (Espressif.step p) (Espressif.init (Ser.init rxm txm []) rmem wmem ty line mac ssid passwd)
        (.run true :: trips setupEsp n ts ++ (setupEsp a r ++ (dial i ++ ops n bs))), Modem.fresh, []⟩ :=
  (startEsp p (wmem := wmem) (ty := ty) (ssid := ssid) (passwd := passwd) hrx hrx2 htx htx2 hn hl hmac hrm hcap hts hf hty old i hb).strung

/-- C75, Espressif: nothing is lost. -/
theorem C75_espressif (as : List Act) (ha : ∀ x ∈ as, Fair meaningEsp x) :
    let d := exec (Espressif.step p) (Espressif.init (Ser.init rxm txm []) rmem wmem ty line mac ssid passwd)
      (.run true :: trips setupEsp n ts ++ (setupEsp a r ++ (dial i ++ ops n bs)))
    (Cable.acts ⟨tongueEsp old, n, cap, meaningEsp⟩ (Espressif.step p) ⟨d, Modem.fresh, []⟩ as).Sound :=
  have f := Espressif.follows p (some a) old n cap
  have e := Espressif.eager p (some a) old n cap
  ((stringEsp p (wmem := wmem) (ty := ty) (ssid := ssid) (passwd := passwd) hrx hrx2 htx htx2 hn hl hmac hrm hcap hts hf hty old i hb).acts f e as ha).sound f

/-- C75, Espressif: everything that was said is read. -/
theorem C75_espressif_reads (as : List Act) (ha : ∀ x ∈ as, Fair meaningEsp x) (ks : List Nat) :
    let d := exec (Espressif.step p) (Espressif.init (Ser.init rxm txm []) rmem wmem ty line mac ssid passwd)
      (.run true :: trips setupEsp n ts ++ (setupEsp a r ++ (dial i ++ ops n bs)))
    let w := Cable.acts ⟨tongueEsp old, n, cap, meaningEsp⟩ (Espressif.step p) ⟨d, Modem.fresh, []⟩ as
    w.air.length + w.drv.ser.bytesAvailable.2 ≤ ks.length →
      (w.acts ⟨tongueEsp old, n, cap, meaningEsp⟩ (Espressif.step p) (ks.flatMap fun k => [.pass k, .run])).Drained :=
  have f := Espressif.follows p (some a) old n cap
  have e := Espressif.eager p (some a) old n cap
  ((stringEsp p (wmem := wmem) (ty := ty) (ssid := ssid) (passwd := passwd) hrx hrx2 htx htx2 hn hl hmac hrm hcap hts hf hty old i hb).acts f e as ha).drains f e ks

/-- C75, Espressif: everything is delivered. -/
theorem C75_espressif_settles (as : List Act) (ha : ∀ x ∈ as, Fair meaningEsp x) (rs : List (List Act))
    (hf' : ∀ xs ∈ rs, ∀ x ∈ xs, Fair meaningEsp x) :
    let d := exec (Espressif.step p) (Espressif.init (Ser.init rxm txm []) rmem wmem ty line mac ssid passwd)
      (.run true :: trips setupEsp n ts ++ (setupEsp a r ++ (dial i ++ ops n bs)))
    let w := Cable.acts ⟨tongueEsp old, n, cap, meaningEsp⟩ (Espressif.step p) ⟨d, Modem.fresh, []⟩ as
    w.Rounds ⟨tongueEsp old, n, cap, meaningEsp⟩ (Espressif.step p) rs → w.effort ≤ rs.length →
      (w.acts ⟨tongueEsp old, n, cap, meaningEsp⟩ (Espressif.step p) rs.flatten).Settled := by
  intro d w hr hw
  have f := Espressif.follows p (some a) old n cap
  have e := Espressif.eager p (some a) old n cap
  have h := (stringEsp p (wmem := wmem) (ty := ty) (ssid := ssid) (passwd := passwd) hrx hrx2 htx htx2 hn hl hmac hrm hcap hts hf hty old i hb).acts f e as ha
  obtain ⟨-, s, c, T, h1, h2, -, h3⟩ := h.settles f e rs hf' hr hw
  exact h3.done f h1 h2

/-- C75, Espressif: then `disconnect()` closes the connection, and everything was delivered. -/
theorem C75_espressif_close (as : List Act) (ha : ∀ x ∈ as, Fair meaningEsp x) (rs : List (List Act))
    (hf' : ∀ xs ∈ rs, ∀ x ∈ xs, Fair meaningEsp x) (j : Nat) {cs : List Beat} (hc : Dialogue (closeEsp r) cs) :
    let d := exec (Espressif.step p) (Espressif.init (Ser.init rxm txm []) rmem wmem ty line mac ssid passwd)
      (.run true :: trips setupEsp n ts ++ (setupEsp a r ++ (dial i ++ ops n bs)))
    let w := Cable.acts ⟨tongueEsp old, n, cap, meaningEsp⟩ (Espressif.step p) ⟨d, Modem.fresh, []⟩ as
    let w' := w.acts ⟨tongueEsp old, n, cap, meaningEsp⟩ (Espressif.step p) rs.flatten
    let d' := exec (Espressif.step p) w'.drv (.run true :: (hangUp j ++ ops n cs))
    w.Rounds ⟨tongueEsp old, n, cap, meaningEsp⟩ (Espressif.step p) rs → w.effort ≤ rs.length →
      d'.isIdle = true ∧ w'.modem.outbox = accepted d'.trace ∧ handed d'.trace = w'.modem.came := by
  intro d w w' d' hr hw
  have f := Espressif.follows p (some a) old n cap
  have q := Espressif.eager p (some a) old n cap
  have h := (stringEsp p (wmem := wmem) (ty := ty) (ssid := ssid) (passwd := passwd) hrx hrx2 htx htx2 hn hl hmac hrm hcap hts hf hty old i hb).acts f q as ha
  obtain ⟨-, s, c, T, h1, h2, h0, h3⟩ := h.settles f q rs hf' hr hw
  have h4 := h3.done f h1 h2
  have v := f.seen h1
  have e := h3.spot
  subst e
  have hI : c.Idle := ⟨h3.wq, h3.data, h3.rcv⟩
  obtain ⟨F0, F1, -, F2, -, F3, -⟩ := h1.1
  have h5 := Espressif.leave_ok p F1 (by omega) F3 hI h0 (F0.trans hty.symm) (h1.up hI) j hc (xs := []) (by simp)
  have e : d' = exec (Espressif.step p) (Espressif.step p w'.drv (.run true)) (hangUp j ++ ops n cs ++ hearAll n []) := by
    show exec _ _ _ = exec _ _ (_ ++ [])
    rw [List.append_nil]; rfl
  rw [← e] at h5
  have h6 := h5.1.told
  obtain ⟨new, x, -, -, h7, h8⟩ := h6
  rw [List.nil_append] at x
  refine ⟨isIdle_of h5.1.cs, ?_, ?_⟩
  · rw [x, h7, ← v.took]; exact h4.out
  · rw [x, h8, ← v.gave]; exact h4.came

/-- C75, Espressif: there are as many rounds as one likes. -/
theorem C75_espressif_rounds (as : List Act) (ha : ∀ x ∈ as, Fair meaningEsp x) :
    let d := exec (Espressif.step p) (Espressif.init (Ser.init rxm txm []) rmem wmem ty line mac ssid passwd)
      (.run true :: trips setupEsp n ts ++ (setupEsp a r ++ (dial i ++ ops n bs)))
    let w := Cable.acts ⟨tongueEsp old, n, cap, meaningEsp⟩ (Espressif.step p) ⟨d, Modem.fresh, []⟩ as
    ∃ rs, w.Rounds ⟨tongueEsp old, n, cap, meaningEsp⟩ (Espressif.step p) rs ∧ (∀ xs ∈ rs, ∀ x ∈ xs, Fair meaningEsp x) ∧
      w.effort ≤ rs.length := by
  intro d w
  have f := Espressif.follows p (some a) old n cap
  have e := Espressif.eager p (some a) old n cap
  obtain ⟨rs, h1, h2, h3⟩ := ((stringEsp p (wmem := wmem) (ty := ty) (ssid := ssid) (passwd := passwd) hrx hrx2 htx htx2 hn hl hmac hrm hcap hts hf hty old i hb).acts f e as ha).rounds f e w.effort
  exact ⟨rs, h2, h3, Nat.le_of_eq h1.symm⟩

end Espressif

/-! ### CC1352P7 -/

section CC1352P7

variable (p : Platform) {rxm txm rmem wmem line mac : List Byte} {ty : ConnType} {n cap : Nat}
    (hrx : 60 ≤ rxm.length) (hrx2 : rxm.length < 2 ^ 64) (htx : 24 ≤ txm.length) (htx2 : txm.length ≤ 65557) (hn : txm.length ≤ n)
    (hl : line.length = 61) (hmac : ¬ (p.charSigned = false ∧ mac.getD 1 0 = 255 ∧ mac.getD 0 0 = 0)) (hrm : rmem ≠ []) (hcap : cap < 2 ^ 31)
    {ts : List (Trip Unit)}
    (hts : ∀ t ∈ ts, FitsCC txm.length t.peer ∧ t.visit.Ok (openCC t.peer) closeCC stayCC (Clear [b!"ERROR"]))
    {r : Peer} (hf : FitsCC txm.length r) (i : Nat) {bs : List Beat} (hb : Dialogue (openCC r) bs)
include hrx hrx2 htx htx2 hn hl hmac hrm hcap hts hf hb

theorem stringCC :
    Strung (CC1352P7.mach) ⟨tongueCC, n, cap, meaningCC⟩ (CC1352P7.In p n cap)
      ⟨exec (CC1352P7.step p) (CC1352P7.init (Ser.init rxm txm []) rmem wmem ty line mac)
        (.run true :: trips (fun _ => setupCC) n ts ++ (setupCC r ++ (dial i ++ ops n bs))), Modem.fresh, []⟩ :=
  (startCC p (wmem := wmem) (ty := ty) hrx hrx2 htx htx2 hn hl hmac hrm hcap hts hf i hb).strung

/-- C75, CC1352P7: nothing is lost. -/
theorem C75_cc1352p7 (as : List Act) (ha : ∀ x ∈ as, Fair meaningCC x) :
    let d := exec (CC1352P7.step p) (CC1352P7.init (Ser.init rxm txm []) rmem wmem ty line mac)
      (.run true :: trips (fun _ => setupCC) n ts ++ (setupCC r ++ (dial i ++ ops n bs)))
    (Cable.acts ⟨tongueCC, n, cap, meaningCC⟩ (CC1352P7.step p) ⟨d, Modem.fresh, []⟩ as).Sound :=
  have f := CC1352P7.follows p n cap
  have e := CC1352P7.eager p n cap
  ((stringCC p (wmem := wmem) (ty := ty) hrx hrx2 htx htx2 hn hl hmac hrm hcap hts hf i hb).acts f e as ha).sound f

/-- C75, CC1352P7: everything that was said is read. -/
theorem C75_cc1352p7_reads (as : List Act) (ha : ∀ x ∈ as, Fair meaningCC x) (ks : List Nat) :
    let d := exec (CC1352P7.step p) (CC1352P7.init (Ser.init rxm txm []) rmem wmem ty line mac)
      (.run true :: trips (fun _ => setupCC) n ts ++ (setupCC r ++ (dial i ++ ops n bs)))
    let w := Cable.acts ⟨tongueCC, n, cap, meaningCC⟩ (CC1352P7.step p) ⟨d, Modem.fresh, []⟩ as
    w.air.length + w.drv.ser.bytesAvailable.2 ≤ ks.length →
      (w.acts ⟨tongueCC, n, cap, meaningCC⟩ (CC1352P7.step p) (ks.flatMap fun k => [.pass k, .run])).Drained :=
  have f := CC1352P7.follows p n cap
  have e := CC1352P7.eager p n cap
  ((stringCC p (wmem := wmem) (ty := ty) hrx hrx2 htx htx2 hn hl hmac hrm hcap hts hf i hb).acts f e as ha).drains f e ks

/-- C75, CC1352P7: everything is delivered. -/
theorem C75_cc1352p7_settles (as : List Act) (ha : ∀ x ∈ as, Fair meaningCC x) (rs : List (List Act))
    (hf' : ∀ xs ∈ rs, ∀ x ∈ xs, Fair meaningCC x) :
    let d := exec (CC1352P7.step p) (CC1352P7.init (Ser.init rxm txm []) rmem wmem ty line mac)
      (.run true :: trips (fun _ => setupCC) n ts ++ (setupCC r ++ (dial i ++ ops n bs)))
    let w := Cable.acts ⟨tongueCC, n, cap, meaningCC⟩ (CC1352P7.step p) ⟨d, Modem.fresh, []⟩ as
    w.Rounds ⟨tongueCC, n, cap, meaningCC⟩ (CC1352P7.step p) rs → w.effort ≤ rs.length →
      (w.acts ⟨tongueCC, n, cap, meaningCC⟩ (CC1352P7.step p) rs.flatten).Settled := by
  intro d w hr hw
  have f := CC1352P7.follows p n cap
  have e := CC1352P7.eager p n cap
  have h := (stringCC p (wmem := wmem) (ty := ty) hrx hrx2 htx htx2 hn hl hmac hrm hcap hts hf i hb).acts f e as ha
  obtain ⟨-, s, c, T, h1, h2, -, h3⟩ := h.settles f e rs hf' hr hw
  exact h3.done f h1 h2

/-- C75, CC1352P7: then `disconnect()` closes the connection, and everything was delivered. -/
theorem C75_cc1352p7_close (as : List Act) (ha : ∀ x ∈ as, Fair meaningCC x) (rs : List (List Act))
    (hf' : ∀ xs ∈ rs, ∀ x ∈ xs, Fair meaningCC x) (j : Nat) {cs : List Beat} (hc : Dialogue closeCC cs) :
    let d := exec (CC1352P7.step p) (CC1352P7.init (Ser.init rxm txm []) rmem wmem ty line mac)
      (.run true :: trips (fun _ => setupCC) n ts ++ (setupCC r ++ (dial i ++ ops n bs)))
    let w := Cable.acts ⟨tongueCC, n, cap, meaningCC⟩ (CC1352P7.step p) ⟨d, Modem.fresh, []⟩ as
    let w' := w.acts ⟨tongueCC, n, cap, meaningCC⟩ (CC1352P7.step p) rs.flatten
    let d' := exec (CC1352P7.step p) w'.drv (.run true :: (hangUp j ++ ops n cs))
    w.Rounds ⟨tongueCC, n, cap, meaningCC⟩ (CC1352P7.step p) rs → w.effort ≤ rs.length →
      d'.isIdle = true ∧ w'.modem.outbox = accepted d'.trace ∧ handed d'.trace = w'.modem.came := by
  intro d w w' d' hr hw
  have f := CC1352P7.follows p n cap
  have q := CC1352P7.eager p n cap
  have h := (stringCC p (wmem := wmem) (ty := ty) hrx hrx2 htx htx2 hn hl hmac hrm hcap hts hf i hb).acts f q as ha
  obtain ⟨-, s, c, T, h1, h2, h0, h3⟩ := h.settles f q rs hf' hr hw
  have h4 := h3.done f h1 h2
  have v := f.seen h1
  have e := h3.spot
  subst e
  have hI : c.Idle := ⟨h3.wq, h3.data, h3.rcv⟩
  obtain ⟨F1, -, F2, -, F3, -⟩ := h1.1
  have h5 := CC1352P7.leave_ok p F1 (by omega) F3 hI h0 (h1.up hI) j hc (xs := []) (by simp)
  have e : d' = exec (CC1352P7.step p) (CC1352P7.step p w'.drv (.run true)) (hangUp j ++ ops n cs ++ hearAll n []) := by
    show exec _ _ _ = exec _ _ (_ ++ [])
    rw [List.append_nil]; rfl
  rw [← e] at h5
  have h6 := h5.1.told
  obtain ⟨new, x, -, -, h7, h8⟩ := h6
  rw [List.nil_append] at x
  refine ⟨isIdle_of h5.1.cs, ?_, ?_⟩
  · rw [x, h7, ← v.took]; exact h4.out
  · rw [x, h8, ← v.gave]; exact h4.came

/-- C75, CC1352P7: there are as many rounds as one likes. -/
theorem C75_cc1352p7_rounds (as : List Act) (ha : ∀ x ∈ as, Fair meaningCC x) :
    let d := exec (CC1352P7.step p) (CC1352P7.init (Ser.init rxm txm []) rmem wmem ty line mac)
      (.run true :: trips (fun _ => setupCC) n ts ++ (setupCC r ++ (dial i ++ ops n bs)))
    let w := Cable.acts ⟨tongueCC, n, cap, meaningCC⟩ (CC1352P7.step p) ⟨d, Modem.fresh, []⟩ as
    ∃ rs, w.Rounds ⟨tongueCC, n, cap, meaningCC⟩ (CC1352P7.step p) rs ∧ (∀ xs ∈ rs, ∀ x ∈ xs, Fair meaningCC x) ∧
      w.effort ≤ rs.length := by
  intro d w
  have f := CC1352P7.follows p n cap
  have e := CC1352P7.eager p n cap
  obtain ⟨rs, h1, h2, h3⟩ := ((stringCC p (wmem := wmem) (ty := ty) hrx hrx2 htx htx2 hn hl hmac hrm hcap hts hf i hb).acts f e as ha).rounds f e w.effort
  exact ⟨rs, h2, h3, Nat.le_of_eq h1.symm⟩

end CC1352P7

/-! ### The hypotheses can be met

The connections are those of the examples for C62. The application writes, the server sends more than fits into the read buffer,
in two parts. Everything the modem says is on its way until a good part of it arrives at once; when `run()` is called, several
lines have arrived. -/

def chatter : List Act :=
  [.write b!"HELLO", .write b!" AGAIN", .run, .net b!"WORLD 1" false, .noise b!"RING\r\n", .speak, .net b!"WORLD 2" true, .tell,
    .noise b!"RING\r\n", .pass 3, .run, .pass 40]

example : ∀ m ∈ [meaning7x00, meaning800, meaningEsp, meaningCC], ∀ x ∈ chatter, Fair m x := by
  intro m hm x hx
  have h : ∀ w ∈ m, ¬ w <+: b!"RING\r\n" := by
    simp only [List.mem_cons, List.not_mem_nil, or_false] at hm
    rcases hm with rfl | rfl | rfl | rfl <;> decide
  simp only [chatter, List.mem_cons, List.not_mem_nil, or_false] at hx
  rcases hx with rfl | rfl | rfl | rfl | rfl | rfl | rfl | rfl | rfl | rfl | rfl | rfl <;>
    first | trivial | exact ⟨⟨by decide, b!"RING\r", rfl, by decide, by decide, by decide⟩, h⟩

def turn : List Act :=
  [.noise b!"RING\r\n", .tell, .speak, .give 1, .read 4, .pass 60, .run, .pass 60, .run, .run, .pass 60, .run, .run]

example : ∀ q ∈ [Handshake.server, Handshake.other],
    let w := Cable.acts ⟨tongue7x00 q, 80, 100, meaning7x00⟩ (Sim7x00.step ⟨true, true⟩) ⟨(some7x00 q).drv, Modem.fresh, []⟩ chatter
    let w' := w.acts ⟨tongue7x00 q, 80, 100, meaning7x00⟩ (Sim7x00.step ⟨true, true⟩) (List.replicate 20 turn).flatten
    w.modem.outbox = [] ∧ handed w.drv.trace = [] ∧ w.drv.isConnected = true ∧ 15 < w.drv.ser.bytesAvailable.2 ∧
      w'.modem.outbox = b!"HELLO AGAIN" ∧ handed w'.drv.trace = b!"WORLD 1WORLD 2" ∧ w'.air = [] ∧ w'.drv.ser.bytesAvailable.2 = 0 := by
  decide +kernel

example : ∀ q ∈ [Handshake.server, Handshake.other],
    let w := Cable.acts ⟨tongue800, 80, 100, meaning800⟩ (Sim800.step ⟨true, true⟩) ⟨(some800 q).drv, Modem.fresh, []⟩ chatter
    let w' := w.acts ⟨tongue800, 80, 100, meaning800⟩ (Sim800.step ⟨true, true⟩) (List.replicate 20 turn).flatten
    w.modem.outbox = [] ∧ handed w.drv.trace = [] ∧ w.drv.isConnected = true ∧ 15 < w.drv.ser.bytesAvailable.2 ∧
      w'.modem.outbox = b!"HELLO AGAIN" ∧ handed w'.drv.trace = b!"WORLD 1WORLD 2" ∧ w'.air = [] ∧ w'.drv.ser.bytesAvailable.2 = 0 := by
  decide +kernel

example : ∀ old,
    let w := Cable.acts ⟨tongueEsp old, 80, 100, meaningEsp⟩ (Espressif.step ⟨true, true⟩) ⟨someEsp.drv, Modem.fresh, []⟩ chatter
    let w' := w.acts ⟨tongueEsp old, 80, 100, meaningEsp⟩ (Espressif.step ⟨true, true⟩) (List.replicate 20 turn).flatten
    w.modem.outbox = [] ∧ handed w.drv.trace = [] ∧ w.drv.isConnected = true ∧ 15 < w.drv.ser.bytesAvailable.2 ∧
      w'.modem.outbox = b!"HELLO AGAIN" ∧ handed w'.drv.trace = b!"WORLD 1WORLD 2" ∧ w'.air = [] ∧ w'.drv.ser.bytesAvailable.2 = 0 := by
  decide +kernel

example : ∀ q ∈ [Handshake.server, Handshake.other],
    let w := Cable.acts ⟨tongueCC, 80, 100, meaningCC⟩ (CC1352P7.step ⟨true, true⟩) ⟨(someCC q).drv, Modem.fresh, []⟩ chatter
    let w' := w.acts ⟨tongueCC, 80, 100, meaningCC⟩ (CC1352P7.step ⟨true, true⟩) (List.replicate 20 turn).flatten
    w.modem.outbox = [] ∧ handed w.drv.trace = [] ∧ w.drv.isConnected = true ∧ 15 < w.drv.ser.bytesAvailable.2 ∧
      w'.modem.outbox = b!"HELLO AGAIN" ∧ handed w'.drv.trace = b!"WORLD 1WORLD 2" ∧ w'.air = [] ∧ w'.drv.ser.bytesAvailable.2 = 0 := by
  decide +kernel

end Verif.Props.Cable
