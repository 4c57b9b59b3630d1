import Verif.Lemmas.Blocks
import Verif.Props.Traffic

/-!
# C72: blocking calls on a driver

`BlockingCommDevice` and a driver with an open connection, connected back to back with the modem. The connection is used in any way
before the call.
-/

namespace Verif.Props.Block

open Verif Dev Spec Traffic

/-! ### SIM7x00 -/

section Sim7x00

variable (p : Platform) {rxm txm rmem wmem line ip id : List Byte} {ty : ConnType} {n cap : Nat}
    (hrx : 60 ≤ rxm.length) (hrx2 : rxm.length < 2 ^ 64) (htx : 44 ≤ txm.length) (htx2 : txm.length ≤ 65557) (hn : txm.length ≤ n)
    (hl : line.length = 61) (hip : ip.length = 16) (hid : 2 ≤ id.length) (hrm : rmem ≠ []) (hcap : cap < 2 ^ 31)
    {ts : List (Trip (List Byte))}
    (hts : ∀ t ∈ ts, Fits7x00 txm.length t.access t.peer ∧ t.visit.Ok (open7x00 t.access t.peer) close7x00 stay7x00 (fun _ => True))
    {a : List Byte} {r : Peer} (hf : Fits7x00 txm.length a r) (i : Nat) {bs : List Beat} (hb : Dialogue (open7x00 a r) bs)
include hrx hrx2 htx htx2 hn hl hip hid hrm hcap hts hf hb


variable (as : List Act) (ha : ∀ x ∈ as, Fair meaning7x00 x) {ticks : Nat → Nat} {others : Nat → World Sim7x00.D → List Act}
    (ho : ∀ k w, ∀ x ∈ others k w, Fair meaning7x00 x) {fuel : Nat} {timeout : Int} {q : Site Sim7x00.D}
include ha ho

/-- C72, SIM7x00: a blocking read returns the next bytes of the server, and no byte is lost. -/
theorem C72_sim7x00_read (hx : ∀ k w, ∀ x ∈ others k w, x.foreign = true) {len : Nat} (hlen : len < 2 ^ 31) {out : List Byte} :
    let d := exec (Sim7x00.step p) (Sim7x00.init (Ser.init rxm txm []) rmem wmem ty line ip id)
      (.run true :: trips setup7x00 n ts ++ (setup7x00 a r ++ (dial i ++ ops n bs)))
    let w := World.acts ⟨tongue7x00 r, n, cap, meaning7x00⟩ (Sim7x00.step p) ⟨d, Modem.fresh, none⟩ as
    let dev := World.blocking ⟨tongue7x00 r, n, cap, meaning7x00⟩ (Sim7x00.step p) ticks others
    Blocking.read dev fuel w.site len timeout = some (out, q) →
      out.length ≤ len ∧ handed q.world.drv.trace = handed w.drv.trace ++ out ∧ accepted q.world.drv.trace = accepted w.drv.trace ∧
        q.world.Sound := by
  have v := Sim7x00.serves p a r n 1500 cap
  have hj := (start7x00 p (wmem := wmem) (ty := ty) hrx hrx2 htx htx2 hn hl hip hid hrm hcap hts hf i hb).acts v.follows as ha
  exact read_sound v hj ho hx hlen

/-- C72, SIM7x00: if the bytes have come and everybody does his part, it ends and returns as many bytes as asked for. -/
theorem C72_sim7x00_read_ends {len : Nat} (hlen : len < 2 ^ 31) (ht : Patient ticks timeout fuel) :
    let d := exec (Sim7x00.step p) (Sim7x00.init (Ser.init rxm txm []) rmem wmem ty line ip id)
      (.run true :: trips setup7x00 n ts ++ (setup7x00 a r ++ (dial i ++ ops n bs)))
    let w := World.acts ⟨tongue7x00 r, n, cap, meaning7x00⟩ (Sim7x00.step p) ⟨d, Modem.fresh, none⟩ as
    let dev := World.blocking ⟨tongue7x00 r, n, cap, meaning7x00⟩ (Sim7x00.step p) ticks others
    (∀ k w, Pause ⟨tongue7x00 r, n, cap, meaning7x00⟩ (Sim7x00.step p) w (others k w)) → w.effort ≤ fuel →
      (handed w.drv.trace).length + len ≤ w.modem.came.length →
      ∃ q, Blocking.read dev fuel w.site len timeout = some ((w.modem.came.drop (handed w.drv.trace).length).take len, q) := by
  intro d w dev hp he hc
  have v := Sim7x00.serves p a r n 1500 cap
  have hj := (start7x00 p (wmem := wmem) (ty := ty) hrx hrx2 htx htx2 hn hl hip hid hrm hcap hts hf i hb).acts v.follows as ha
  exact read_ends v hj ho hp hlen he hc ht

/-- C72, SIM7x00: a blocking write that does not return 0 has sent everything; in any case either all of it was handed to the driver or
nothing. -/
theorem C72_sim7x00_write (hx : ∀ k w, ∀ x ∈ others k w, x.foreign = true) {data : List Byte} (hlen : data.length < 2 ^ 31) {m : Nat} :
    let d := exec (Sim7x00.step p) (Sim7x00.init (Ser.init rxm txm []) rmem wmem ty line ip id)
      (.run true :: trips setup7x00 n ts ++ (setup7x00 a r ++ (dial i ++ ops n bs)))
    let w := World.acts ⟨tongue7x00 r, n, cap, meaning7x00⟩ (Sim7x00.step p) ⟨d, Modem.fresh, none⟩ as
    let dev := World.blocking ⟨tongue7x00 r, n, cap, meaning7x00⟩ (Sim7x00.step p) ticks others
    Blocking.write dev fuel w.site data timeout = some (m, q) →
      (m = 0 ∨ m = data.length ∧ q.world.modem.outbox = accepted w.drv.trace ++ data) ∧
        (accepted q.world.drv.trace = accepted w.drv.trace ∨ accepted q.world.drv.trace = accepted w.drv.trace ++ data) ∧
        handed q.world.drv.trace = handed w.drv.trace ∧ q.world.Sound := by
  have v := Sim7x00.serves p a r n 1500 cap
  have hj := (start7x00 p (wmem := wmem) (ty := ty) hrx hrx2 htx htx2 hn hl hip hid hrm hcap hts hf i hb).acts v.follows as ha
  exact write_sound v hj ho hx hlen

/-- C72, SIM7x00: if the data fits into the write buffer, what has come and was not read fits into the read buffer, and everybody does
his part, `run()` last, then a blocking write ends and has sent everything. -/
theorem C72_sim7x00_write_ends {data : List Byte} (hd : data ≠ []) (hlen : data.length < 2 ^ 31) (ht : Patient ticks timeout (2 * fuel)) :
    let d := exec (Sim7x00.step p) (Sim7x00.init (Ser.init rxm txm []) rmem wmem ty line ip id)
      (.run true :: trips setup7x00 n ts ++ (setup7x00 a r ++ (dial i ++ ops n bs)))
    let w := World.acts ⟨tongue7x00 r, n, cap, meaning7x00⟩ (Sim7x00.step p) ⟨d, Modem.fresh, none⟩ as
    let dev := World.blocking ⟨tongue7x00 r, n, cap, meaning7x00⟩ (Sim7x00.step p) ticks others
    (∀ k w, Pause ⟨tongue7x00 r, n, cap, meaning7x00⟩ (Sim7x00.step p) w (others k w) ∧ ∃ u, others k w = u ++ [.run]) →
      w.effort + 100 * data.length < fuel → w.modem.came.length ≤ (handed w.drv.trace).length + w.drv.rbuf.size →
      data.length ≤ w.drv.wbuf.size →
      ∃ q, Blocking.write dev fuel w.site data timeout = some (data.length, q) ∧ q.world.modem.outbox = accepted w.drv.trace ++ data := by
  intro d w dev hp he hr hw
  have v := Sim7x00.serves p a r n 1500 cap
  have hj := (start7x00 p (wmem := wmem) (ty := ty) hrx hrx2 htx htx2 hn hl hip hid hrm hcap hts hf i hb).acts v.follows as ha
  obtain ⟨q, hq⟩ := write_ends v hj ho (fun k w => (hp k w).1) (fun k w => (hp k w).2) hlen he hr hw ht
  refine ⟨q, hq, ?_⟩
  obtain ⟨h1, -⟩ := write_sound v hj ho (fun k w => (hp k w).1.foreign) hlen hq
  rcases h1 with h1 | ⟨-, h1⟩
  · exact absurd (List.length_eq_zero_iff.mp h1) hd
  · exact h1

end Sim7x00

/-! ### SIM800 -/

section Sim800

variable (p : Platform) {rxm txm rmem wmem line ip id : List Byte} {ty : ConnType} {n cap : Nat}
    (hrx : 60 ≤ rxm.length) (hrx2 : rxm.length < 2 ^ 64) (htx : 28 ≤ txm.length) (htx2 : txm.length ≤ 65557) (hn : txm.length ≤ n)
    (hl : line.length = 61) (hip : ip.length = 16) (hid : 2 ≤ id.length) (hrm : rmem ≠ []) (hcap : cap < 2 ^ 31)
    {ts : List (Trip (List Byte))}
    (hts : ∀ t ∈ ts, Fits800 txm.length t.access t.peer ∧ t.visit.Ok (open800 t.access t.peer) close800 stay800 (Clear errors800))
    {a : List Byte} {r : Peer} (hf : Fits800 txm.length a r) (i : Nat) {bs : List Beat} (hb : Dialogue (open800 a r) bs)
include hrx hrx2 htx htx2 hn hl hip hid hrm hcap hts hf hb


variable (as : List Act) (ha : ∀ x ∈ as, Fair meaning800 x) {ticks : Nat → Nat} {others : Nat → World Sim800.D → List Act}
    (ho : ∀ k w, ∀ x ∈ others k w, Fair meaning800 x) {fuel : Nat} {timeout : Int} {q : Site Sim800.D}
include ha ho

/-- C72, SIM800: a blocking read returns the next bytes of the server, and no byte is lost. -/
theorem C72_sim800_read (hx : ∀ k w, ∀ x ∈ others k w, x.foreign = true) {len : Nat} (hlen : len < 2 ^ 31) {out : List Byte} :
    let d := exec (Sim800.step p) (Sim800.init (Ser.init rxm txm []) rmem wmem ty line ip id)
      (.run true :: trips setup7x00 n ts ++ (setup7x00 a r ++ (dial i ++ ops n bs)))
    let w := World.acts ⟨tongue800, n, cap, meaning800⟩ (Sim800.step p) ⟨d, Modem.fresh, none⟩ as
    let dev := World.blocking ⟨tongue800, n, cap, meaning800⟩ (Sim800.step p) ticks others
    Blocking.read dev fuel w.site len timeout = some (out, q) →
      out.length ≤ len ∧ handed q.world.drv.trace = handed w.drv.trace ++ out ∧ accepted q.world.drv.trace = accepted w.drv.trace ∧
        q.world.Sound := by
  have v := Sim800.serves p a r n 1460 cap
  have hj := (start800 p (wmem := wmem) (ty := ty) hrx hrx2 htx htx2 hn hl hip hid hrm hcap hts hf i hb).acts v.follows as ha
  exact read_sound v hj ho hx hlen

/-- C72, SIM800: if the bytes have come and everybody does his part, it ends and returns as many bytes as asked for. -/
theorem C72_sim800_read_ends {len : Nat} (hlen : len < 2 ^ 31) (ht : Patient ticks timeout fuel) :
    let d := exec (Sim800.step p) (Sim800.init (Ser.init rxm txm []) rmem wmem ty line ip id)
      (.run true :: trips setup7x00 n ts ++ (setup7x00 a r ++ (dial i ++ ops n bs)))
    let w := World.acts ⟨tongue800, n, cap, meaning800⟩ (Sim800.step p) ⟨d, Modem.fresh, none⟩ as
    let dev := World.blocking ⟨tongue800, n, cap, meaning800⟩ (Sim800.step p) ticks others
    (∀ k w, Pause ⟨tongue800, n, cap, meaning800⟩ (Sim800.step p) w (others k w)) → w.effort ≤ fuel →
      (handed w.drv.trace).length + len ≤ w.modem.came.length →
      ∃ q, Blocking.read dev fuel w.site len timeout = some ((w.modem.came.drop (handed w.drv.trace).length).take len, q) := by
  intro d w dev hp he hc
  have v := Sim800.serves p a r n 1460 cap
  have hj := (start800 p (wmem := wmem) (ty := ty) hrx hrx2 htx htx2 hn hl hip hid hrm hcap hts hf i hb).acts v.follows as ha
  exact read_ends v hj ho hp hlen he hc ht

/-- C72, SIM800: a blocking write that does not return 0 has sent everything; in any case either all of it was handed to the driver or
nothing. -/
theorem C72_sim800_write (hx : ∀ k w, ∀ x ∈ others k w, x.foreign = true) {data : List Byte} (hlen : data.length < 2 ^ 31) {m : Nat} :
    let d := exec (Sim800.step p) (Sim800.init (Ser.init rxm txm []) rmem wmem ty line ip id)
      (.run true :: trips setup7x00 n ts ++ (setup7x00 a r ++ (dial i ++ ops n bs)))
    let w := World.acts ⟨tongue800, n, cap, meaning800⟩ (Sim800.step p) ⟨d, Modem.fresh, none⟩ as
    let dev := World.blocking ⟨tongue800, n, cap, meaning800⟩ (Sim800.step p) ticks others
    Blocking.write dev fuel w.site data timeout = some (m, q) →
      (m = 0 ∨ m = data.length ∧ q.world.modem.outbox = accepted w.drv.trace ++ data) ∧
        (accepted q.world.drv.trace = accepted w.drv.trace ∨ accepted q.world.drv.trace = accepted w.drv.trace ++ data) ∧
        handed q.world.drv.trace = handed w.drv.trace ∧ q.world.Sound := by
  have v := Sim800.serves p a r n 1460 cap
  have hj := (start800 p (wmem := wmem) (ty := ty) hrx hrx2 htx htx2 hn hl hip hid hrm hcap hts hf i hb).acts v.follows as ha
  exact write_sound v hj ho hx hlen

/-- C72, SIM800: if the data fits into the write buffer, what has come and was not read fits into the read buffer, and everybody does
his part, `run()` last, then a blocking write ends and has sent everything. -/
theorem C72_sim800_write_ends {data : List Byte} (hd : data ≠ []) (hlen : data.length < 2 ^ 31) (ht : Patient ticks timeout (2 * fuel)) :
    let d := exec (Sim800.step p) (Sim800.init (Ser.init rxm txm []) rmem wmem ty line ip id)
      (.run true :: trips setup7x00 n ts ++ (setup7x00 a r ++ (dial i ++ ops n bs)))
    let w := World.acts ⟨tongue800, n, cap, meaning800⟩ (Sim800.step p) ⟨d, Modem.fresh, none⟩ as
    let dev := World.blocking ⟨tongue800, n, cap, meaning800⟩ (Sim800.step p) ticks others
    (∀ k w, Pause ⟨tongue800, n, cap, meaning800⟩ (Sim800.step p) w (others k w) ∧ ∃ u, others k w = u ++ [.run]) →
      w.effort + 100 * data.length < fuel → w.modem.came.length ≤ (handed w.drv.trace).length + w.drv.rbuf.size →
      data.length ≤ w.drv.wbuf.size →
      ∃ q, Blocking.write dev fuel w.site data timeout = some (data.length, q) ∧ q.world.modem.outbox = accepted w.drv.trace ++ data := by
  intro d w dev hp he hr hw
  have v := Sim800.serves p a r n 1460 cap
  have hj := (start800 p (wmem := wmem) (ty := ty) hrx hrx2 htx htx2 hn hl hip hid hrm hcap hts hf i hb).acts v.follows as ha
  obtain ⟨q, hq⟩ := write_ends v hj ho (fun k w => (hp k w).1) (fun k w => (hp k w).2) hlen he hr hw ht
  refine ⟨q, hq, ?_⟩
  obtain ⟨h1, -⟩ := write_sound v hj ho (fun k w => (hp k w).1.foreign) hlen hq
  rcases h1 with h1 | ⟨-, h1⟩
  · exact absurd (List.length_eq_zero_iff.mp h1) hd
  · exact h1

end Sim800

/-! ### Espressif -/

section Espressif

variable (p : Platform) {rxm txm rmem wmem line mac : List Byte} {ssid passwd : CPtr} {ty : ConnType} {n cap : Nat}
    (hrx : 60 ≤ rxm.length) (hrx2 : rxm.length < 2 ^ 64) (htx : 24 ≤ txm.length) (htx2 : txm.length ≤ 65557) (hn : txm.length ≤ n)
    (hl : line.length = 61) (hmac : ¬ (p.charSigned = false ∧ mac.getD 1 0 = 255 ∧ mac.getD 0 0 = 0)) (hrm : rmem ≠ []) (hcap : cap < 2 ^ 31)
    {ts : List (Trip Wifi)}
    (hts : ∀ t ∈ ts, FitsEsp txm.length t.access t.peer ∧ t.visit.Ok (openEsp t.access t.peer) (closeEsp t.peer) (stayEsp t.peer) (restEsp t.peer))
    {a : Wifi} {r : Peer} (hf : FitsEsp txm.length a r) (hty : r.typ = .tcp) (old : Bool) (i : Nat) {bs : List Beat} (hb : Dialogue (openEsp a r) bs)
include hrx hrx2 htx htx2 hn hl hmac hrm hcap hts hf hty hb


variable (as : List Act) (ha : ∀ x ∈ as, Fair meaningEsp x) {ticks : Nat → Nat} {others : Nat → World Espressif.D → List Act}
    (ho : ∀ k w, ∀ x ∈ others k w, Fair meaningEsp x) {fuel : Nat} {timeout : Int} {q : Site Espressif.D}
include ha ho

/-- C72, Espressif: a blocking read returns the next bytes of the server, and no byte is lost. -/
theorem C72_espressif_read (hx : ∀ k w, ∀ x ∈ others k w, x.foreign = true) {len : Nat} (hlen : len < 2 ^ 31) {out : List Byte} :
    let d := exec (Espressif.step p) (Espressif.init (Ser.init rxm txm []) rmem wmem ty line mac ssid passwd)
      (.run true :: trips setupEsp n ts ++ (setupEsp a r ++ (dial i ++ ops n bs)))
    let w := World.acts ⟨tongueEsp old, n, cap, meaningEsp⟩ (Espressif.step p) ⟨d, Modem.fresh, none⟩ as
    let dev := World.blocking ⟨tongueEsp old, n, cap, meaningEsp⟩ (Espressif.step p) ticks others
    Blocking.read dev fuel w.site len timeout = some (out, q) →
      out.length ≤ len ∧ handed q.world.drv.trace = handed w.drv.trace ++ out ∧ accepted q.world.drv.trace = accepted w.drv.trace ∧
        q.world.Sound := by
  have v := Espressif.serves p (some a) old n cap
  have hj := (startEsp p (wmem := wmem) (ty := ty) (ssid := ssid) (passwd := passwd) hrx hrx2 htx htx2 hn hl hmac hrm hcap hts hf hty old i hb).acts v.follows as ha
  exact read_sound v hj ho hx hlen

/-- C72, Espressif: if the bytes have come and everybody does his part, it ends and returns as many bytes as asked for. -/
theorem C72_espressif_read_ends {len : Nat} (hlen : len < 2 ^ 31) (ht : Patient ticks timeout fuel) :
    let d := exec (Espressif.step p) (Espressif.init (Ser.init rxm txm []) rmem wmem ty line mac ssid passwd)
      (.run true :: trips setupEsp n ts ++ (setupEsp a r ++ (dial i ++ ops n bs)))
    let w := World.acts ⟨tongueEsp old, n, cap, meaningEsp⟩ (Espressif.step p) ⟨d, Modem.fresh, none⟩ as
    let dev := World.blocking ⟨tongueEsp old, n, cap, meaningEsp⟩ (Espressif.step p) ticks others
    (∀ k w, Pause ⟨tongueEsp old, n, cap, meaningEsp⟩ (Espressif.step p) w (others k w)) → w.effort ≤ fuel →
      (handed w.drv.trace).length + len ≤ w.modem.came.length →
      ∃ q, Blocking.read dev fuel w.site len timeout = some ((w.modem.came.drop (handed w.drv.trace).length).take len, q) := by
  intro d w dev hp he hc
  have v := Espressif.serves p (some a) old n cap
  have hj := (startEsp p (wmem := wmem) (ty := ty) (ssid := ssid) (passwd := passwd) hrx hrx2 htx htx2 hn hl hmac hrm hcap hts hf hty old i hb).acts v.follows as ha
  exact read_ends v hj ho hp hlen he hc ht

/-- C72, Espressif: a blocking write that does not return 0 has sent everything; in any case either all of it was handed to the driver or
nothing. -/
theorem C72_espressif_write (hx : ∀ k w, ∀ x ∈ others k w, x.foreign = true) {data : List Byte} (hlen : data.length < 2 ^ 31) {m : Nat} :
    let d := exec (Espressif.step p) (Espressif.init (Ser.init rxm txm []) rmem wmem ty line mac ssid passwd)
      (.run true :: trips setupEsp n ts ++ (setupEsp a r ++ (dial i ++ ops n bs)))
    let w := World.acts ⟨tongueEsp old, n, cap, meaningEsp⟩ (Espressif.step p) ⟨d, Modem.fresh, none⟩ as
    let dev := World.blocking ⟨tongueEsp old, n, cap, meaningEsp⟩ (Espressif.step p) ticks others
    Blocking.write dev fuel w.site data timeout = some (m, q) →
      (m = 0 ∨ m = data.length ∧ q.world.modem.outbox = accepted w.drv.trace ++ data) ∧
        (accepted q.world.drv.trace = accepted w.drv.trace ∨ accepted q.world.drv.trace = accepted w.drv.trace ++ data) ∧
        handed q.world.drv.trace = handed w.drv.trace ∧ q.world.Sound := by
  have v := Espressif.serves p (some a) old n cap
  have hj := (startEsp p (wmem := wmem) (ty := ty) (ssid := ssid) (passwd := passwd) hrx hrx2 htx htx2 hn hl hmac hrm hcap hts hf hty old i hb).acts v.follows as ha
  exact write_sound v hj ho hx hlen

/-- C72, Espressif: if the data fits into the write buffer, what has come and was not read fits into the read buffer, and everybody does
his part, `run()` last, then a blocking write ends and has sent everything. -/
theorem C72_espressif_write_ends {data : List Byte} (hd : data ≠ []) (hlen : data.length < 2 ^ 31) (ht : Patient ticks timeout (2 * fuel)) :
    let d := exec (Espressif.step p) (Espressif.init (Ser.init rxm txm []) rmem wmem ty line mac ssid passwd)
      (.run true :: trips setupEsp n ts ++ (setupEsp a r ++ (dial i ++ ops n bs)))
    let w := World.acts ⟨tongueEsp old, n, cap, meaningEsp⟩ (Espressif.step p) ⟨d, Modem.fresh, none⟩ as
    let dev := World.blocking ⟨tongueEsp old, n, cap, meaningEsp⟩ (Espressif.step p) ticks others
    (∀ k w, Pause ⟨tongueEsp old, n, cap, meaningEsp⟩ (Espressif.step p) w (others k w) ∧ ∃ u, others k w = u ++ [.run]) →
      w.effort + 100 * data.length < fuel → w.modem.came.length ≤ (handed w.drv.trace).length + w.drv.rbuf.size →
      data.length ≤ w.drv.wbuf.size →
      ∃ q, Blocking.write dev fuel w.site data timeout = some (data.length, q) ∧ q.world.modem.outbox = accepted w.drv.trace ++ data := by
  intro d w dev hp he hr hw
  have v := Espressif.serves p (some a) old n cap
  have hj := (startEsp p (wmem := wmem) (ty := ty) (ssid := ssid) (passwd := passwd) hrx hrx2 htx htx2 hn hl hmac hrm hcap hts hf hty old i hb).acts v.follows as ha
  obtain ⟨q, hq⟩ := write_ends v hj ho (fun k w => (hp k w).1) (fun k w => (hp k w).2) hlen he hr hw ht
  refine ⟨q, hq, ?_⟩
  obtain ⟨h1, -⟩ := write_sound v hj ho (fun k w => (hp k w).1.foreign) hlen hq
  rcases h1 with h1 | ⟨-, h1⟩
  · exact absurd (List.length_eq_zero_iff.mp h1) hd
  · exact h1

end Espressif

/-! ### CC1352P7 -/

section CC1352P7

variable (p : Platform) {rxm txm rmem wmem line mac : List Byte} {ty : ConnType} {n cap : Nat}
    (hrx : 60 ≤ rxm.length) (hrx2 : rxm.length < 2 ^ 64) (htx : 24 ≤ txm.length) (htx2 : txm.length ≤ 65557) (hn : txm.length ≤ n)
    (hl : line.length = 61) (hmac : ¬ (p.charSigned = false ∧ mac.getD 1 0 = 255 ∧ mac.getD 0 0 = 0)) (hrm : rmem ≠ []) (hcap : cap < 2 ^ 31)
    {ts : List (Trip Unit)}
    (hts : ∀ t ∈ ts, FitsCC txm.length t.peer ∧ t.visit.Ok (openCC t.peer) closeCC stayCC (Clear [b!"ERROR"]))
    {r : Peer} (hf : FitsCC txm.length r) (i : Nat) {bs : List Beat} (hb : Dialogue (openCC r) bs)
include hrx hrx2 htx htx2 hn hl hmac hrm hcap hts hf hb


variable (as : List Act) (ha : ∀ x ∈ as, Fair meaningCC x) {ticks : Nat → Nat} {others : Nat → World CC1352P7.D → List Act}
    (ho : ∀ k w, ∀ x ∈ others k w, Fair meaningCC x) {fuel : Nat} {timeout : Int} {q : Site CC1352P7.D}
include ha ho

/-- C72, CC1352P7: a blocking read returns the next bytes of the server, and no byte is lost. -/
theorem C72_cc1352p7_read (hx : ∀ k w, ∀ x ∈ others k w, x.foreign = true) {len : Nat} (hlen : len < 2 ^ 31) {out : List Byte} :
    let d := exec (CC1352P7.step p) (CC1352P7.init (Ser.init rxm txm []) rmem wmem ty line mac)
      (.run true :: trips (fun _ => setupCC) n ts ++ (setupCC r ++ (dial i ++ ops n bs)))
    let w := World.acts ⟨tongueCC, n, cap, meaningCC⟩ (CC1352P7.step p) ⟨d, Modem.fresh, none⟩ as
    let dev := World.blocking ⟨tongueCC, n, cap, meaningCC⟩ (CC1352P7.step p) ticks others
    Blocking.read dev fuel w.site len timeout = some (out, q) →
      out.length ≤ len ∧ handed q.world.drv.trace = handed w.drv.trace ++ out ∧ accepted q.world.drv.trace = accepted w.drv.trace ∧
        q.world.Sound := by
  have v := CC1352P7.serves p n cap
  have hj := (startCC p (wmem := wmem) (ty := ty) hrx hrx2 htx htx2 hn hl hmac hrm hcap hts hf i hb).acts v.follows as ha
  exact read_sound v hj ho hx hlen

/-- C72, CC1352P7: if the bytes have come and everybody does his part, it ends and returns as many bytes as asked for. -/
theorem C72_cc1352p7_read_ends {len : Nat} (hlen : len < 2 ^ 31) (ht : Patient ticks timeout fuel) :
    let d := exec (CC1352P7.step p) (CC1352P7.init (Ser.init rxm txm []) rmem wmem ty line mac)
      (.run true :: trips (fun _ => setupCC) n ts ++ (setupCC r ++ (dial i ++ ops n bs)))
    let w := World.acts ⟨tongueCC, n, cap, meaningCC⟩ (CC1352P7.step p) ⟨d, Modem.fresh, none⟩ as
    let dev := World.blocking ⟨tongueCC, n, cap, meaningCC⟩ (CC1352P7.step p) ticks others
    (∀ k w, Pause ⟨tongueCC, n, cap, meaningCC⟩ (CC1352P7.step p) w (others k w)) → w.effort ≤ fuel →
      (handed w.drv.trace).length + len ≤ w.modem.came.length →
      ∃ q, Blocking.read dev fuel w.site len timeout = some ((w.modem.came.drop (handed w.drv.trace).length).take len, q) := by
  intro d w dev hp he hc
  have v := CC1352P7.serves p n cap
  have hj := (startCC p (wmem := wmem) (ty := ty) hrx hrx2 htx htx2 hn hl hmac hrm hcap hts hf i hb).acts v.follows as ha
  exact read_ends v hj ho hp hlen he hc ht

/-- C72, CC1352P7: a blocking write that does not return 0 has sent everything; in any case either all of it was handed to the driver or
nothing. -/
theorem C72_cc1352p7_write (hx : ∀ k w, ∀ x ∈ others k w, x.foreign = true) {data : List Byte} (hlen : data.length < 2 ^ 31) {m : Nat} :
    let d := exec (CC1352P7.step p) (CC1352P7.init (Ser.init rxm txm []) rmem wmem ty line mac)
      (.run true :: trips (fun _ => setupCC) n ts ++ (setupCC r ++ (dial i ++ ops n bs)))
    let w := World.acts ⟨tongueCC, n, cap, meaningCC⟩ (CC1352P7.step p) ⟨d, Modem.fresh, none⟩ as
    let dev := World.blocking ⟨tongueCC, n, cap, meaningCC⟩ (CC1352P7.step p) ticks others
    Blocking.write dev fuel w.site data timeout = some (m, q) →
      (m = 0 ∨ m = data.length ∧ q.world.modem.outbox = accepted w.drv.trace ++ data) ∧
        (accepted q.world.drv.trace = accepted w.drv.trace ∨ accepted q.world.drv.trace = accepted w.drv.trace ++ data) ∧
        handed q.world.drv.trace = handed w.drv.trace ∧ q.world.Sound := by
  have v := CC1352P7.serves p n cap
  have hj := (startCC p (wmem := wmem) (ty := ty) hrx hrx2 htx htx2 hn hl hmac hrm hcap hts hf i hb).acts v.follows as ha
  exact write_sound v hj ho hx hlen

/-- C72, CC1352P7: if the data fits into the write buffer, what has come and was not read fits into the read buffer, and everybody does
his part, `run()` last, then a blocking write ends and has sent everything. -/
theorem C72_cc1352p7_write_ends {data : List Byte} (hd : data ≠ []) (hlen : data.length < 2 ^ 31) (ht : Patient ticks timeout (2 * fuel)) :
    let d := exec (CC1352P7.step p) (CC1352P7.init (Ser.init rxm txm []) rmem wmem ty line mac)
      (.run true :: trips (fun _ => setupCC) n ts ++ (setupCC r ++ (dial i ++ ops n bs)))
    let w := World.acts ⟨tongueCC, n, cap, meaningCC⟩ (CC1352P7.step p) ⟨d, Modem.fresh, none⟩ as
    let dev := World.blocking ⟨tongueCC, n, cap, meaningCC⟩ (CC1352P7.step p) ticks others
    (∀ k w, Pause ⟨tongueCC, n, cap, meaningCC⟩ (CC1352P7.step p) w (others k w) ∧ ∃ u, others k w = u ++ [.run]) →
      w.effort + 100 * data.length < fuel → w.modem.came.length ≤ (handed w.drv.trace).length + w.drv.rbuf.size →
      data.length ≤ w.drv.wbuf.size →
      ∃ q, Blocking.write dev fuel w.site data timeout = some (data.length, q) ∧ q.world.modem.outbox = accepted w.drv.trace ++ data := by
  intro d w dev hp he hr hw
  have v := CC1352P7.serves p n cap
  have hj := (startCC p (wmem := wmem) (ty := ty) hrx hrx2 htx htx2 hn hl hmac hrm hcap hts hf i hb).acts v.follows as ha
  obtain ⟨q, hq⟩ := write_ends v hj ho (fun k w => (hp k w).1) (fun k w => (hp k w).2) hlen he hr hw ht
  refine ⟨q, hq, ?_⟩
  obtain ⟨h1, -⟩ := write_sound v hj ho (fun k w => (hp k w).1.foreign) hlen hq
  rcases h1 with h1 | ⟨-, h1⟩
  · exact absurd (List.length_eq_zero_iff.mp h1) hd
  · exact h1

end CC1352P7

/-! ### While the caller of a blocking write waits, nobody reads

If the read buffer is full and the modem has more data, the drivers wait for space in it and send nothing: the blocking write never
ends, unless by timeout. -/

deriving instance DecidableEq for Phase
deriving instance DecidableEq for Modem
deriving instance DecidableEq for World

/-- What happens while the caller waits. -/
def lull : List Act := [.tell, .pass 60, .speak, .pass 60, .give 60, .run]

/-- If nothing changes any more, a blocking write waits for ever. -/
theorem stuck {S R X : Type} {c : Scene} {step : Dev S R X → Op → Dev S R X} {w : World (Dev S R X)} {as : List Act}
    (h : w.acts c step as = w ∧ w.drv.spaceAvailable = 0) {data : List Byte} (hd : data ≠ []) (hl : data.length < 2 ^ 31) (ticks : Nat → Nat)
    (timeout : Int) (fuel m : Nat) (q : Site (Dev S R X)) :
    Blocking.write (World.blocking c step ticks fun _ _ => as) fuel w.site data timeout = some (m, q) → m = 0 := by
  have key : ∀ fuel x start b q, x.world = w →
      Blocking.spaceLoop (World.blocking c step ticks fun _ _ => as) start timeout data.length fuel x = some (b, q) → b = false := by
    intro fuel
    induction fuel with
    | zero => intro x start b q _ hs; cases hs
    | succ fuel ih =>
      intro x start b q hx hs
      rw [spaceLoop_succ, hx, toSize_nat (by omega), if_pos (by rw [h.2]; exact List.length_pos_iff.mpr hd)] at hs
      split at hs
      · exact (Prod.mk.inj (Option.some.inj hs)).1.symm
      · exact ih _ _ _ _ h.1 hs
  intro hw
  unfold Blocking.write at hw
  dsimp only at hw
  split at hw
  · cases hw
  · exact (Prod.mk.inj (Option.some.inj hw)).1.symm
  · rename_i hs
    cases key _ _ _ _ _ (by rfl) hs

/-- In every situation everybody can do his part. -/
theorem exists_pause {S R X : Type} (c : Scene) (step : Dev S R X → Op → Dev S R X) (w : World (Dev S R X)) :
    ∃ as, (∀ x ∈ as, Fair c.meaning x) ∧ Pause c step w as ∧ ∃ u, as = u ++ [.run] := by
  have key : ∀ w : World (Dev S R X), ∃ k, (w.act c step (.pass k)).under = none := fun w => by
    cases hu : w.under with
    | none => exact ⟨0, by simp only [World.act, hu]⟩
    | some x =>
      refine ⟨x.2.length, ?_⟩
      simp only [World.act, hu]
      rw [if_pos (List.drop_eq_nil_of_le (by omega))]
      rfl
  obtain ⟨k1, h1⟩ := key w
  obtain ⟨k2, h2⟩ := key (w.acts c step [.pass k1, .tell])
  obtain ⟨k3, h3⟩ := key (w.acts c step [.pass k1, .tell, .pass k2, .speak])
  have h4 : ∀ w : World (Dev S R X), w.under = none → ((w.act c step (.give 0)).act c step .run).under = none := fun w hw => by
    simp only [World.act, hw]
    split
    · rfl
    · exact hw
  refine ⟨[.pass k1, .tell, .pass k2, .speak, .pass k3, .give 0, .run], ?_, ⟨by simp [Act.still], by simp [Act.foreign], by simp,
    ⟨[.pass k1], _, _, rfl, rfl, h1⟩, ⟨[.pass k1, .tell, .pass k2], _, _, rfl, rfl, h2⟩,
    ⟨[.pass k1, .tell, .pass k2, .speak, .pass k3], _, _, rfl, ⟨0, rfl⟩, h3⟩, h4 _ h3⟩,
    [.pass k1, .tell, .pass k2, .speak, .pass k3, .give 0], rfl⟩
  intro a ha
  simp only [List.mem_cons, List.not_mem_nil, or_false] at ha
  rcases ha with rfl | rfl | rfl | rfl | rfl | rfl | rfl <;> trivial

example {S R X : Type} (c : Scene) (step : Dev S R X → Op → Dev S R X) : ∃ others : Nat → World (Dev S R X) → List Act, ∀ k w,
    (∀ x ∈ others k w, Fair c.meaning x) ∧ Pause c step w (others k w) ∧ ∃ u, others k w = u ++ [.run] :=
  ⟨fun _ w => (exists_pause c step w).choose, fun _ w => (exists_pause c step w).choose_spec⟩

example (n : Nat) : Patient (fun k => k) (-1) n ∧ Patient (fun k => k) 1000 999 := by
  refine ⟨fun k _ => ?_, fun k hk => ?_⟩ <;>
    simp only [Blocking.expired, decide_eq_false_iff_not]
  · have : Blocking.toTick (-1) = 4294967295 := by decide
    omega
  · have : Blocking.toTick 1000 = 1000 := by decide
    omega

/-- The server has sent more than fits into the read buffer, and nobody has read. -/
def full7x00 (q : Peer) := (some7x00 q).acts ⟨tongue7x00 q, 80, 100, meaning7x00⟩ (Sim7x00.step ⟨true, true⟩)
  (.net b!"WORLD 1WORLD 2" true :: (List.replicate 12 lull).flatten)

/-- C72: then a blocking write waits for ever. -/
theorem C72_sim7x00_stuck : ∀ q ∈ [Handshake.server, Handshake.other], ∀ data : List Byte, data ≠ [] → data.length < 2 ^ 31 → ∀ ticks timeout fuel m s,
    Blocking.write (World.blocking ⟨tongue7x00 q, 80, 100, meaning7x00⟩ (Sim7x00.step ⟨true, true⟩) ticks fun _ _ => lull) fuel (full7x00 q).site data timeout = some (m, s) → m = 0 := by
  have h : ∀ q ∈ [Handshake.server, Handshake.other], (full7x00 q).acts ⟨tongue7x00 q, 80, 100, meaning7x00⟩ (Sim7x00.step ⟨true, true⟩) lull = full7x00 q ∧ (full7x00 q).drv.spaceAvailable = 0 := by decide +kernel
  intro q hq data hd hl ticks timeout fuel m s
  exact stuck (h q hq) hd hl ticks timeout fuel m s

/-- C72: a blocking write that returns 0 may have sent everything. -/
theorem C72_sim7x00_zero_but_sent : ∀ q ∈ [Handshake.server, Handshake.other],
    (Blocking.write (World.blocking ⟨tongue7x00 q, 80, 100, meaning7x00⟩ (Sim7x00.step ⟨true, true⟩) (fun k => 10 * k) fun _ _ => lull) 100 (some7x00 q).site b!"HELLO" 25).map
      (fun x => (x.1, x.2.world.modem.outbox)) = some (0, b!"HELLO") := by decide +kernel

example : ∀ q ∈ [Handshake.server],
    (Blocking.read (World.blocking ⟨tongue7x00 q, 80, 100, meaning7x00⟩ (Sim7x00.step ⟨true, true⟩) (fun k => k) fun _ _ => lull) 100 ((some7x00 q).act ⟨tongue7x00 q, 80, 100, meaning7x00⟩ (Sim7x00.step ⟨true, true⟩) (.net b!"WORLD 1WORLD 2" true)).site 11 50).map
      (fun x => (x.1, x.2.world.drv.isConnected)) = some (b!"WORLD 1WORL", true) ∧
    (Blocking.read (World.blocking ⟨tongue7x00 q, 80, 100, meaning7x00⟩ (Sim7x00.step ⟨true, true⟩) (fun k => k) fun _ _ => lull) 100 ((some7x00 q).act ⟨tongue7x00 q, 80, 100, meaning7x00⟩ (Sim7x00.step ⟨true, true⟩) (.net b!"WORLD 1WORLD 2" true)).site 20 50).map
      (fun x => (x.1, x.2.world.drv.isConnected)) = some (b!"WORLD 1WORLD 2", true) ∧
    (Blocking.write (World.blocking ⟨tongue7x00 q, 80, 100, meaning7x00⟩ (Sim7x00.step ⟨true, true⟩) (fun k => k) fun _ _ => lull) 100 (some7x00 q).site b!"HELLO" 50).map
      (fun x => (x.1, x.2.world.modem.outbox)) = some (5, b!"HELLO") ∧
    (Blocking.write (World.blocking ⟨tongue7x00 q, 80, 100, meaning7x00⟩ (Sim7x00.step ⟨true, true⟩) (fun k => k) fun _ _ => lull) 100 ((full7x00 q).act ⟨tongue7x00 q, 80, 100, meaning7x00⟩ (Sim7x00.step ⟨true, true⟩) (.read 8)).site b!"HELLO" 50).map
      (fun x => (x.1, x.2.world.modem.outbox)) = some (5, b!"HELLO") := by decide +kernel

/-- The server has sent more than fits into the read buffer, and nobody has read. -/
def full800 (q : Peer) := (some800 q).acts ⟨tongue800, 80, 100, meaning800⟩ (Sim800.step ⟨true, true⟩)
  (.net b!"WORLD 1WORLD 2" true :: (List.replicate 12 lull).flatten)

/-- C72: then a blocking write waits for ever. -/
theorem C72_sim800_stuck : ∀ q ∈ [Handshake.server, Handshake.other], ∀ data : List Byte, data ≠ [] → data.length < 2 ^ 31 → ∀ ticks timeout fuel m s,
    Blocking.write (World.blocking ⟨tongue800, 80, 100, meaning800⟩ (Sim800.step ⟨true, true⟩) ticks fun _ _ => lull) fuel (full800 q).site data timeout = some (m, s) → m = 0 := by
  have h : ∀ q ∈ [Handshake.server, Handshake.other], (full800 q).acts ⟨tongue800, 80, 100, meaning800⟩ (Sim800.step ⟨true, true⟩) lull = full800 q ∧ (full800 q).drv.spaceAvailable = 0 := by decide +kernel
  intro q hq data hd hl ticks timeout fuel m s
  exact stuck (h q hq) hd hl ticks timeout fuel m s

/-- C72: a blocking write that returns 0 may have sent everything. -/
theorem C72_sim800_zero_but_sent : ∀ q ∈ [Handshake.server, Handshake.other],
    (Blocking.write (World.blocking ⟨tongue800, 80, 100, meaning800⟩ (Sim800.step ⟨true, true⟩) (fun k => 10 * k) fun _ _ => lull) 100 (some800 q).site b!"HELLO" 25).map
      (fun x => (x.1, x.2.world.modem.outbox)) = some (0, b!"HELLO") := by decide +kernel

example : ∀ q ∈ [Handshake.server],
    (Blocking.read (World.blocking ⟨tongue800, 80, 100, meaning800⟩ (Sim800.step ⟨true, true⟩) (fun k => k) fun _ _ => lull) 100 ((some800 q).act ⟨tongue800, 80, 100, meaning800⟩ (Sim800.step ⟨true, true⟩) (.net b!"WORLD 1WORLD 2" true)).site 11 50).map
      (fun x => (x.1, x.2.world.drv.isConnected)) = some (b!"WORLD 1WORL", true) ∧
    (Blocking.read (World.blocking ⟨tongue800, 80, 100, meaning800⟩ (Sim800.step ⟨true, true⟩) (fun k => k) fun _ _ => lull) 100 ((some800 q).act ⟨tongue800, 80, 100, meaning800⟩ (Sim800.step ⟨true, true⟩) (.net b!"WORLD 1WORLD 2" true)).site 20 50).map
      (fun x => (x.1, x.2.world.drv.isConnected)) = some (b!"WORLD 1WORLD 2", true) ∧
    (Blocking.write (World.blocking ⟨tongue800, 80, 100, meaning800⟩ (Sim800.step ⟨true, true⟩) (fun k => k) fun _ _ => lull) 100 (some800 q).site b!"HELLO" 50).map
      (fun x => (x.1, x.2.world.modem.outbox)) = some (5, b!"HELLO") ∧
    (Blocking.write (World.blocking ⟨tongue800, 80, 100, meaning800⟩ (Sim800.step ⟨true, true⟩) (fun k => k) fun _ _ => lull) 100 ((full800 q).act ⟨tongue800, 80, 100, meaning800⟩ (Sim800.step ⟨true, true⟩) (.read 8)).site b!"HELLO" 50).map
      (fun x => (x.1, x.2.world.modem.outbox)) = some (5, b!"HELLO") := by decide +kernel

/-- The server has sent more than fits into the read buffer, and nobody has read. -/
def fullEsp (old : Bool) := someEsp.acts ⟨tongueEsp old, 80, 100, meaningEsp⟩ (Espressif.step ⟨true, true⟩)
  (.net b!"WORLD 1WORLD 2" true :: (List.replicate 12 lull).flatten)

/-- C72: then a blocking write waits for ever. -/
theorem C72_espressif_stuck : ∀ old, ∀ data : List Byte, data ≠ [] → data.length < 2 ^ 31 → ∀ ticks timeout fuel m s,
    Blocking.write (World.blocking ⟨tongueEsp old, 80, 100, meaningEsp⟩ (Espressif.step ⟨true, true⟩) ticks fun _ _ => lull) fuel (fullEsp old).site data timeout = some (m, s) → m = 0 := by
  have h : ∀ old, (fullEsp old).acts ⟨tongueEsp old, 80, 100, meaningEsp⟩ (Espressif.step ⟨true, true⟩) lull = fullEsp old ∧ (fullEsp old).drv.spaceAvailable = 0 := by decide +kernel
  intro old data hd hl ticks timeout fuel m s
  exact stuck (h old) hd hl ticks timeout fuel m s

/-- C72: a blocking write that returns 0 may have sent everything. -/
theorem C72_espressif_zero_but_sent : ∀ old,
    (Blocking.write (World.blocking ⟨tongueEsp old, 80, 100, meaningEsp⟩ (Espressif.step ⟨true, true⟩) (fun k => 10 * k) fun _ _ => lull) 100 someEsp.site b!"HELLO" 25).map
      (fun x => (x.1, x.2.world.modem.outbox)) = some (0, b!"HELLO") := by decide +kernel

example : ∀ old,
    (Blocking.read (World.blocking ⟨tongueEsp old, 80, 100, meaningEsp⟩ (Espressif.step ⟨true, true⟩) (fun k => k) fun _ _ => lull) 100 (someEsp.act ⟨tongueEsp old, 80, 100, meaningEsp⟩ (Espressif.step ⟨true, true⟩) (.net b!"WORLD 1WORLD 2" true)).site 11 50).map
      (fun x => (x.1, x.2.world.drv.isConnected)) = some (b!"WORLD 1WORL", true) ∧
    (Blocking.read (World.blocking ⟨tongueEsp old, 80, 100, meaningEsp⟩ (Espressif.step ⟨true, true⟩) (fun k => k) fun _ _ => lull) 100 (someEsp.act ⟨tongueEsp old, 80, 100, meaningEsp⟩ (Espressif.step ⟨true, true⟩) (.net b!"WORLD 1WORLD 2" true)).site 20 50).map
      (fun x => (x.1, x.2.world.drv.isConnected)) = some (b!"WORLD 1WORLD 2", true) ∧
    (Blocking.write (World.blocking ⟨tongueEsp old, 80, 100, meaningEsp⟩ (Espressif.step ⟨true, true⟩) (fun k => k) fun _ _ => lull) 100 someEsp.site b!"HELLO" 50).map
      (fun x => (x.1, x.2.world.modem.outbox)) = some (5, b!"HELLO") ∧
    (Blocking.write (World.blocking ⟨tongueEsp old, 80, 100, meaningEsp⟩ (Espressif.step ⟨true, true⟩) (fun k => k) fun _ _ => lull) 100 ((fullEsp old).act ⟨tongueEsp old, 80, 100, meaningEsp⟩ (Espressif.step ⟨true, true⟩) (.read 8)).site b!"HELLO" 50).map
      (fun x => (x.1, x.2.world.modem.outbox)) = some (5, b!"HELLO") := by decide +kernel

/-- The server has sent more than fits into the read buffer, and nobody has read. -/
def fullCC (q : Peer) := (someCC q).acts ⟨tongueCC, 80, 100, meaningCC⟩ (CC1352P7.step ⟨true, true⟩)
  (.net b!"WORLD 1WORLD 2" true :: (List.replicate 12 lull).flatten)

/-- C72: then a blocking write waits for ever. -/
theorem C72_cc1352p7_stuck : ∀ q ∈ [Handshake.server, Handshake.other], ∀ data : List Byte, data ≠ [] → data.length < 2 ^ 31 → ∀ ticks timeout fuel m s,
    Blocking.write (World.blocking ⟨tongueCC, 80, 100, meaningCC⟩ (CC1352P7.step ⟨true, true⟩) ticks fun _ _ => lull) fuel (fullCC q).site data timeout = some (m, s) → m = 0 := by
  have h : ∀ q ∈ [Handshake.server, Handshake.other], (fullCC q).acts ⟨tongueCC, 80, 100, meaningCC⟩ (CC1352P7.step ⟨true, true⟩) lull = fullCC q ∧ (fullCC q).drv.spaceAvailable = 0 := by decide +kernel
  intro q hq data hd hl ticks timeout fuel m s
  exact stuck (h q hq) hd hl ticks timeout fuel m s

/-- C72: a blocking write that returns 0 may have sent everything. -/
theorem C72_cc1352p7_zero_but_sent : ∀ q ∈ [Handshake.server, Handshake.other],
    (Blocking.write (World.blocking ⟨tongueCC, 80, 100, meaningCC⟩ (CC1352P7.step ⟨true, true⟩) (fun k => 10 * k) fun _ _ => lull) 100 (someCC q).site b!"HELLO" 25).map
      (fun x => (x.1, x.2.world.modem.outbox)) = some (0, b!"HELLO") := by decide +kernel

example : ∀ q ∈ [Handshake.server],
    (Blocking.read (World.blocking ⟨tongueCC, 80, 100, meaningCC⟩ (CC1352P7.step ⟨true, true⟩) (fun k => k) fun _ _ => lull) 100 ((someCC q).act ⟨tongueCC, 80, 100, meaningCC⟩ (CC1352P7.step ⟨true, true⟩) (.net b!"WORLD 1WORLD 2" true)).site 11 50).map
      (fun x => (x.1, x.2.world.drv.isConnected)) = some (b!"WORLD 1WORL", true) ∧
    (Blocking.read (World.blocking ⟨tongueCC, 80, 100, meaningCC⟩ (CC1352P7.step ⟨true, true⟩) (fun k => k) fun _ _ => lull) 100 ((someCC q).act ⟨tongueCC, 80, 100, meaningCC⟩ (CC1352P7.step ⟨true, true⟩) (.net b!"WORLD 1WORLD 2" true)).site 20 50).map
      (fun x => (x.1, x.2.world.drv.isConnected)) = some (b!"WORLD 1WORLD 2", true) ∧
    (Blocking.write (World.blocking ⟨tongueCC, 80, 100, meaningCC⟩ (CC1352P7.step ⟨true, true⟩) (fun k => k) fun _ _ => lull) 100 (someCC q).site b!"HELLO" 50).map
      (fun x => (x.1, x.2.world.modem.outbox)) = some (5, b!"HELLO") ∧
    (Blocking.write (World.blocking ⟨tongueCC, 80, 100, meaningCC⟩ (CC1352P7.step ⟨true, true⟩) (fun k => k) fun _ _ => lull) 100 ((fullCC q).act ⟨tongueCC, 80, 100, meaningCC⟩ (CC1352P7.step ⟨true, true⟩) (.read 8)).site b!"HELLO" 50).map
      (fun x => (x.1, x.2.world.modem.outbox)) = some (5, b!"HELLO") := by decide +kernel

end Verif.Props.Block
