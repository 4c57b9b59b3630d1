import Verif.Lemmas.Datagrams
import Verif.Lemmas.Hollow
import Verif.Lemmas.Trips
import Verif.Props.Handshake

/-!
# C82: datagrams are delivered whole and in order

WiFi driver with a connection that is not TCP.
-/

namespace Verif.Props.Datagrams

open Verif Dev Spec

section

variable (p : Platform) {rxm txm rmem wmem line mac : List Byte} {ssid passwd : CPtr} {ty : ConnType} {n : Nat}
    (hrx : 60 ≤ rxm.length) (htx : 20 ≤ txm.length) (hn : txm.length ≤ n)
    (hl : line.length = 61) (hmac : ¬ (p.charSigned = false ∧ mac.getD 1 0 = 255 ∧ mac.getD 0 0 = 0))
    {ts : List (Trip Wifi)}
    (hts : ∀ t ∈ ts, FitsEsp txm.length t.access t.peer ∧ t.visit.Ok (openEsp t.access t.peer) (closeEsp t.peer) (stayEsp t.peer) (restEsp t.peer))
    {a : Wifi} {r : Peer} (hf : FitsEsp txm.length a r) (hty : r.typ ≠ .tcp) (i : Nat) {bs : List Beat} (hb : Dialogue (openEsp a r) bs)
include hrx htx hn hl hmac hts hf hty hb

/-- Connections were opened and closed; the last one is open, and is not TCP. -/
theorem start :
    Espressif.Held p rxm.length txm.length rmem.length
      ⟨exec (Espressif.step p) (Espressif.init (Ser.init rxm txm []) rmem wmem ty line mac ssid passwd)
        (.run true :: trips setupEsp n ts ++ (setupEsp a r ++ (dial i ++ ops n bs))), [], []⟩ [] [] := by
  obtain ⟨c, x, e0, e1, e2, hI, hm0, h1⟩ := Espressif.trips_ok p ts (n := n) hrx (by show 20 ≤ txm.length; omega) hn ⟨rfl, rfl, rfl⟩ rfl
    (Espressif.init_ok (p := p) (rmem := rmem) (wmem := wmem) (ty := ty) (fun x => by simp [x] at htx) hl hmac) hts
  rw [List.nil_append] at h1
  have hf2 : FitsEsp c.tx a r := by rw [e2]; exact hf
  have h2 := Espressif.arrive_ok p (n := n) (by rw [e1]; exact hrx) (by rw [e2]; show 20 ≤ txm.length; omega) (by rw [e2]; exact hn) hI hm0
    hf2.peer hf2.wifi hf2.texts h1 i (Nat.le_refl 7) (by show Dialogue ((openEsp a r).take (openEsp a r).length) bs; rw [List.take_length]; exact hb)
  rw [← exec_append] at h2
  rw [e0 r] at h2
  obtain ⟨hc, hi, hs⟩ := h2
  have hh : handed (exec (Espressif.step p) (Espressif.init (Ser.init rxm txm []) rmem wmem ty line mac ssid passwd)
        (.run true :: trips setupEsp n ts ++ (setupEsp a r ++ (dial i ++ ops n bs)))).trace = [] := by
    obtain ⟨new, x, -, -, -, h8⟩ := hc.told
    rw [List.nil_append] at x
    exact (congrArg handed x).trans h8
  refine ⟨⟨hc.calm.isOpen, hc.calm.reset, hc.wait, hc.rep, hc.disc, hi, ?_, ?_, hc.ext.mac, ?_, hc.rcv, hc.calm.line, hc.calm.ser, ?_,
    .inl hc.cs, rfl, ⟨[], hc.rbuf, ?_⟩, hc.rcap⟩, .lines [] [] ⟨hc.calm.lineRead, hc.rd, .inl hc.snd, hc.calm.fill.1, rfl⟩ (by simp) rfl (by simp) rfl, ?_⟩
  · exact hc.wempty ⟨rfl, rfl, rfl⟩
  · intro x
    have := hc.ask ▸ x
    exact Bool.noConfusion this
  · exact fun x => hty (hc.typ.symm.trans x)
  · exact hs.symm ▸ htx
  · show handed _ ++ [] = []
    rw [List.append_nil]
    exact hh
  · exact Nat.zero_le _

/-- C82: nothing is lost, doubled or reordered, and whole datagrams are made available. -/
theorem C82_espressif_inorder (as : List Deed) (ha : ∀ m, .says m ∈ as → m.Ok meaningEsp rxm.length) :
    let d := exec (Espressif.step p) (Espressif.init (Ser.init rxm txm []) rmem wmem ty line mac ssid passwd)
      (.run true :: trips setupEsp n ts ++ (setupEsp a r ++ (dial i ++ ops n bs)))
    (Post.acts (Espressif.step p) ⟨d, [], []⟩ as).Sound := by
  obtain ⟨rq, got, h, -⟩ := (start p (rmem := rmem) (wmem := wmem) (ty := ty) (ssid := ssid) (passwd := passwd)
    hrx htx hn hl hmac hts hf hty i hb).acts as ha
  exact h.sound

/-- C82: everything is delivered. -/
theorem C82_espressif_delivered (as : List Deed) (ha : ∀ m, .says m ∈ as → m.Ok meaningEsp rxm.length)
    (rs : List (List Deed)) (hr : ∀ xs ∈ rs, Delivers xs) (k : Nat) :
    let d := exec (Espressif.step p) (Espressif.init (Ser.init rxm txm []) rmem wmem ty line mac ssid passwd)
      (.run true :: trips setupEsp n ts ++ (setupEsp a r ++ (dial i ++ ops n bs)))
    let w := Post.acts (Espressif.step p) ⟨d, [], []⟩ as
    w.effort ≤ rs.length → w.came.flatten.length ≤ k →
    handed (w.acts (Espressif.step p) (rs.flatten ++ [.read k])).drv.trace = w.came.flatten := by
  intro d w he hk
  obtain ⟨rq, got, h, -⟩ := (start p (rmem := rmem) (wmem := wmem) (ty := ty) (ssid := ssid) (passwd := passwd)
    hrx htx hn hl hmac hts hf hty i hb).acts as ha
  exact h.delivered (by omega) rs hr he k hk

end

/-- A connection. -/
def peer : Peer := Handshake.other

def chat : Post Espressif.D :=
  ⟨exec (Espressif.step ⟨true, true⟩) (Espressif.init (Ser.init (List.replicate 60 0) (List.replicate 80 0) []) (List.replicate 8 0)
    (List.replicate 12 0) .tcp (List.replicate 61 0) (List.replicate 18 0) .null .null)
    (.run true :: setupEsp Handshake.home peer ++ (dial 2 ++ ops 80 (Handshake.tripEsp peer).visit.up)), [], []⟩

/-- Lines, datagrams with line ends and header text in them, in small portions. -/
def deeds : List Deed :=
  [.says (.noise b!"\r\n"), .says (.datagram b!"+IPD"), .pass 4, .run, .pass 3, .says (.noise b!"RING\r\n"), .run, .pass 0, .run, .run,
   .says (.datagram [13, 10, 0]), .pass 11, .run, .run, .read 3, .run, .pass 2, .run]

theorem deeds_ok : ∀ m, .says m ∈ deeds → m.Ok meaningEsp (List.replicate 60 (0 : Byte)).length := by
  show ∀ m, .says m ∈ deeds → m.Ok meaningEsp 60
  intro m hm
  simp only [deeds, List.mem_cons, Deed.says.injEq, reduceCtorEq, List.not_mem_nil, false_or, or_false] at hm
  rcases hm with rfl | rfl | rfl | rfl
  · exact ⟨⟨by decide, b!"\r", rfl, by decide, by decide, by decide⟩, by unfold Spec.Clear; decide, by decide⟩
  · exact ⟨by decide, by decide, by decide⟩
  · exact ⟨⟨by decide, b!"RING\r", rfl, by decide, by decide, by decide⟩, by unfold Spec.Clear; decide, by decide⟩
  · exact ⟨by decide, by decide, by decide⟩

def turn : List Deed := [.read 1, .pass 2, .run, .run]

theorem turn_ok : Delivers turn := ⟨by decide, [.read 1], 2, [], [.run], rfl⟩

example :
    let w := chat.acts (Espressif.step ⟨true, true⟩) deeds
    let w' := w.acts (Espressif.step ⟨true, true⟩) ((List.replicate w.effort turn).flatten ++ [.read 7])
    w.came = [b!"+IPD", [13, 10, 0]] ∧ handed w.drv.trace = b!"+IP" ∧ w.drv.bytesAvailable = 1 ∧ w.air = [58, 13, 10, 0] ∧
      handed w'.drv.trace = b!"+IPD" ++ [13, 10, 0] := by
  decide +kernel

theorem fits : FitsEsp (List.replicate 80 (0 : Byte)).length Handshake.home peer :=
  (Handshake.tripsEsp (Handshake.tripEsp peer) (by simp [peer])).1

theorem opened : Dialogue (openEsp Handshake.home peer) (Handshake.tripEsp peer).visit.up :=
  (Handshake.tripsEsp (Handshake.tripEsp peer) (by simp [peer])).2.1

/-- The hypotheses of the theorems are met. -/
example : (chat.acts (Espressif.step ⟨true, true⟩) deeds).Sound :=
  C82_espressif_inorder ⟨true, true⟩ (n := 80) (ts := []) (by decide) (by decide) (by decide) (by decide) (by decide)
    (by simp) fits (by decide) 2 opened deeds deeds_ok

example (rs : List (List Deed)) (hr : rs = List.replicate (chat.acts (Espressif.step ⟨true, true⟩) deeds).effort turn) :
    handed ((chat.acts (Espressif.step ⟨true, true⟩) deeds).acts (Espressif.step ⟨true, true⟩) (rs.flatten ++ [.read 7])).drv.trace =
      (chat.acts (Espressif.step ⟨true, true⟩) deeds).came.flatten :=
  C82_espressif_delivered ⟨true, true⟩ (n := 80) (ts := []) (by decide) (by decide) (by decide) (by decide) (by decide)
    (by simp) fits (by decide) 2 opened deeds deeds_ok rs (fun xs hx => by rw [hr] at hx; rw [List.eq_of_mem_replicate hx]; exact turn_ok) 7
    (by rw [hr, List.length_replicate]; exact Nat.le_refl _) (by decide +kernel)

/-- An empty datagram: the header announces nothing, but the driver waits for data instead of lines. It takes nothing from the serial
line any more, sends no payload and at most one command, whatever is called and received, until `disconnect()` or `resetStates()`. -/
theorem C82_espressif_hollow (p : Platform) (rx tx : List Byte) (sched : List (List Hw))
    (rmem wmem : List Byte) (t : ConnType) (line mac : List Byte) (ssid passwd : CPtr)
    (hl : line.length = 61) (pre : List Op) :
    let d := exec (Espressif.step p) (Espressif.init (Ser.init rx tx sched) rmem wmem t line mac ssid passwd) pre
    ∀ ok l rest, (Espressif.run p d ok).trace = d.trace ++ .line l :: rest → b!"+IPD" <+: l → 5 ≤ l.length →
    numberAt p l 5 = 0 → d.typ ≠ .tcp → d.snd = .connected → d.wait = none → d.rep = .okReply →
    d.bytesToRead = 0 → d.disconnectPending = false → d.resetPending = false →
    ∀ post, .resetStates ∉ post → .disconnect ∉ post →
      Deaf (d.trace ++ [.line l]) (exec (Espressif.step p) (Espressif.run p d ok) post).trace := by
  intro d ok l rest ht hp h5 hn htyp hs hw hrp hb hd hr post h1 h2
  have hv : Espressif.Inv d := exec_inv (ok := fun _ => True) (fun _ op _ h => Espressif.step_inv p op h)
    (Espressif.inv_init rx tx sched rmem wmem t mac ssid passwd hl) pre fun _ _ => trivial
  exact Espressif.hollow_datagram p hv hr hd htyp hs hw hrp hb ht hp h5 hn post
    fun op hop => ⟨fun e => h1 (e ▸ hop), fun e => h2 (e ▸ hop)⟩

/-- Such a history. -/
example :
    let d := exec (Espressif.step Sess.arm) Sess.espressif (Sess.upEsp .udp ++ Sess.say b!"+IPD,0:")
    (Espressif.run Sess.arm d true).trace = d.trace ++ [.line b!"+IPD,0:"] ∧
    numberAt Sess.arm b!"+IPD,0:" 5 = 0 ∧ d.typ ≠ .tcp ∧ d.snd = .connected ∧
    d.wait = none ∧ d.rep = .okReply ∧ d.bytesToRead = 0 ∧ d.disconnectPending = false ∧
    d.resetPending = false := by
  decide +kernel

theorem exec_run (p : Platform) (d : Espressif.D) (ops : List Op) :
    exec (Espressif.step p) d (ops ++ [.run true]) = Espressif.run p (exec (Espressif.step p) d ops) true := by
  rw [exec_append]; rfl

/-- The next datagram, and everything else the modem says, is lost. -/
theorem C82_espressif_lost : ∃ pre, ∀ post, .resetStates ∉ post → .disconnect ∉ post →
    let d := exec (Espressif.step Sess.arm) Sess.espressif pre
    (d.isConnected = true ∧ [.line b!"+IPD,0:"] <:+ d.trace) ∧
    Deaf d.trace (exec (Espressif.step Sess.arm) d post).trace := by
  refine ⟨Sess.upEsp .udp ++ Sess.say b!"+IPD,0:" ++ [.run true], fun post h1 h2 => ?_⟩
  have h := C82_espressif_hollow Sess.arm (List.replicate 80 0) (List.replicate 80 0) [] (List.replicate 8 0) (List.replicate 8 0)
    .tcp (List.replicate 61 0) (List.replicate 18 0) .uninit .uninit (by decide) (Sess.upEsp .udp ++ Sess.say b!"+IPD,0:")
    true b!"+IPD,0:" [] (by decide +kernel) (by decide +kernel) (by decide +kernel) (by decide +kernel) (by decide +kernel) (by decide +kernel) (by decide +kernel)
    (by decide +kernel) (by decide +kernel) (by decide +kernel) (by decide +kernel) post h1 h2
  have et : (exec (Espressif.step Sess.arm) Sess.espressif (Sess.upEsp .udp ++ Sess.say b!"+IPD,0:" ++ [.run true])).trace =
      (exec (Espressif.step Sess.arm) Sess.espressif (Sess.upEsp .udp ++ Sess.say b!"+IPD,0:")).trace ++ [.line b!"+IPD,0:"] := by
    decide +kernel
  refine ⟨by decide +kernel, ?_⟩
  rw [et, exec_run]
  exact h

end Verif.Props.Datagrams
