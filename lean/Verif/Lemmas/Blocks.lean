import Verif.Lemmas.Block
import Verif.Lemmas.Net7x00
import Verif.Lemmas.Net800
import Verif.Lemmas.NetEsp
import Verif.Lemmas.NetCC

/-!
The four drivers and blocking calls.
-/

namespace Verif

open Dev Spec

namespace Sim7x00

theorem In.talk {apn : Option (List Byte)} {r : Peer} {n most cap : Nat} {s : Spot} {c : Conf} {T : List (List Byte)} {d : D}
    (h : In apn r n most cap s c T d) : ∃ E q l x, Talk c E [] T q { d with lineRead := l, ser := x } := by
  obtain ⟨-, h⟩ := h
  cases s
  case taking b =>
    obtain ⟨-, -, _, -, h⟩ := h
    obtain ⟨x, h⟩ := h.talk
    exact ⟨_, _, _, _, h⟩
  all_goals
    obtain ⟨-, -, _, -, h, -⟩ := h
    exact ⟨_, _, d.lineRead, d.ser, h⟩

theorem serves (p : Platform) (a : List Byte) (r : Peer) (n most cap : Nat) :
    Serves (mach r most) ⟨tongue7x00 r, n, cap, meaning7x00⟩ (step p) (In (some a) r n most cap) where
  follows := follows p (some a) r n most cap
  rest h hI := (h.up p hI).1.cs
  wbuf h := by obtain ⟨_, _, _, _, h⟩ := h.talk; exact h.wbuf
  wcap h := by obtain ⟨_, _, _, _, h⟩ := h.talk; exact h.wcap
  rbuf h := by obtain ⟨_, _, _, _, h⟩ := h.talk; exact h.rbuf
  rcap h := by obtain ⟨_, _, _, _, h⟩ := h.talk; exact h.rcap
  read _ _ := rfl
  write _ _ := rfl

end Sim7x00

namespace Sim800

theorem In.talk {apn : Option (List Byte)} {r : Peer} {n most cap : Nat} {s : Spot} {c : Conf} {T : List (List Byte)} {d : D}
    (h : In apn r n most cap s c T d) : ∃ E q l x, Talk c E [] T q { d with lineRead := l, ser := x } := by
  obtain ⟨-, h⟩ := h
  cases s
  case taking b =>
    obtain ⟨-, -, _, -, h⟩ := h
    obtain ⟨x, h⟩ := h.talk
    exact ⟨_, _, _, _, h⟩
  all_goals
    obtain ⟨-, -, _, -, h, -⟩ := h
    exact ⟨_, _, d.lineRead, d.ser, h⟩

theorem serves (p : Platform) (a : List Byte) (r : Peer) (n most cap : Nat) :
    Serves (mach most) ⟨tongue800, n, cap, meaning800⟩ (step p) (In (some a) r n most cap) where
  follows := follows p (some a) r n most cap
  rest h hI := (h.up p hI).1.cs
  wbuf h := by obtain ⟨_, _, _, _, h⟩ := h.talk; exact h.wbuf
  wcap h := by obtain ⟨_, _, _, _, h⟩ := h.talk; exact h.wcap
  rbuf h := by obtain ⟨_, _, _, _, h⟩ := h.talk; exact h.rbuf
  rcap h := by obtain ⟨_, _, _, _, h⟩ := h.talk; exact h.rcap
  read _ _ := rfl
  write _ _ := rfl

end Sim800

namespace Espressif

theorem In.talk {p : Platform} {w : Option Wifi} {n cap : Nat} {s : Spot} {c : Conf} {T : List (List Byte)} {d : D}
    (h : In p w n cap s c T d) : ∃ E q l x, Talk c E [] T q { d with lineRead := l, ser := x } := by
  obtain ⟨-, h⟩ := h
  cases s
  case taking b =>
    obtain ⟨-, _, -, h⟩ := h
    obtain ⟨x, h⟩ := h.talk
    exact ⟨_, _, _, _, h⟩
  all_goals
    obtain ⟨-, _, -, h, -⟩ := h
    exact ⟨_, _, d.lineRead, d.ser, h⟩

theorem serves (p : Platform) (w : Option Wifi) (old : Bool) (n cap : Nat) :
    Serves (mach old) ⟨tongueEsp old, n, cap, meaningEsp⟩ (step p) (In p w n cap) where
  follows := follows p w old n cap
  rest h hI := (h.up hI).1.cs
  wbuf h := by obtain ⟨_, _, _, _, h⟩ := h.talk; exact h.wbuf
  wcap h := by obtain ⟨_, _, _, _, h⟩ := h.talk; exact h.wcap
  rbuf h := by obtain ⟨_, _, _, _, h⟩ := h.talk; exact h.rbuf
  rcap h := by obtain ⟨_, _, _, _, h⟩ := h.talk; exact h.rcap
  read _ _ := rfl
  write _ _ := rfl

end Espressif

namespace CC1352P7

theorem In.talk {p : Platform} {n cap : Nat} {s : Spot} {c : Conf} {T : List (List Byte)} {d : D}
    (h : In p n cap s c T d) : ∃ E q l x, Talk c E [] T q { d with lineRead := l, ser := x } := by
  obtain ⟨-, h⟩ := h
  cases s
  case taking b =>
    obtain ⟨-, _, -, h⟩ := h
    obtain ⟨x, h⟩ := h.talk
    exact ⟨_, _, _, _, h⟩
  all_goals
    obtain ⟨-, _, -, h, -⟩ := h
    exact ⟨_, _, d.lineRead, d.ser, h⟩

theorem serves (p : Platform) (n cap : Nat) :
    Serves mach ⟨tongueCC, n, cap, meaningCC⟩ (step p) (In p n cap) where
  follows := follows p n cap
  rest h hI := (h.up hI).1.cs
  wbuf h := by obtain ⟨_, _, _, _, h⟩ := h.talk; exact h.wbuf
  wcap h := by obtain ⟨_, _, _, _, h⟩ := h.talk; exact h.wcap
  rbuf h := by obtain ⟨_, _, _, _, h⟩ := h.talk; exact h.rbuf
  rcap h := by obtain ⟨_, _, _, _, h⟩ := h.talk; exact h.rcap
  read _ _ := rfl
  write _ _ := rfl

end CC1352P7
end Verif
