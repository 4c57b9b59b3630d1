import Verif.Lemmas.DrvFrame
import Verif.Lemmas.History
import Verif.Model.Ops

/-! The limit of a data request never changes. -/

namespace Verif

open Dev

namespace SimDev

variable {S R : Type}

theorem parseDnsReply_maxRx (d : SimDev S R) : d.parseDnsReply.1.ext.maxRx = d.ext.maxRx := by
  unfold parseDnsReply; (try dsimp only); (repeat' split) <;> rfl

theorem parseIDReply_maxRx (d : SimDev S R) : d.parseIDReply.1.ext.maxRx = d.ext.maxRx := by
  have h : ∀ l, (parseIDReply.go d l).1.ext.maxRx = d.ext.maxRx := by
    intro l; unfold parseIDReply.go; (try dsimp only); (repeat' split) <;> rfl
  unfold parseIDReply; (try dsimp only); (repeat' split) <;> first | rfl | exact h _

theorem sendIDRequest_maxRx (d : SimDev S R) (c : List Byte) :
    (d.sendIDRequest c).1.ext.maxRx = d.ext.maxRx := by
  unfold sendIDRequest; (try dsimp only); (repeat' split) <;> rfl

end SimDev

namespace Dev

theorem common_ext {S R X : Type} (d : Dev S R X) (op : Op) : (d.common op).ext = d.ext := by
  cases op <;> first | rfl | simp [common]

theorem logConnect_ext {S R X : Type} (r : Dev S R X × Bool) : (logConnect r).ext = r.1.ext := by
  unfold logConnect; split <;> rfl

end Dev

namespace Sim7x00

theorem act_maxRx (d : D) : (act d).ext.maxRx = d.ext.maxRx := by
  unfold act
  split <;> (try unfold actCgsockcont) <;> (try unfold actCipopen) <;>
    (try unfold actConnected) <;> (try unfold actCiprxget2) <;> (try unfold actReceiving) <;>
    (try dsimp only) <;> (repeat' split) <;> simp

theorem parseLine_maxRx (p : Platform) (d : D) : (parseLine p d).1.ext.maxRx = d.ext.maxRx := by
  have hw : ∀ e : D, (parseWait e).1.ext = e.ext := by
    intro e; unfold parseWait; (repeat' split) <;> rfl
  have hp : ∀ e : D, (parseReply p e).1.ext.maxRx = e.ext.maxRx := by
    intro e; unfold parseReply
    split <;> (try dsimp only) <;> (repeat' split) <;>
      simp [SimDev.parseDnsReply_maxRx, SimDev.parseIDReply_maxRx]
  have hc : ∀ e : D, (checkState e).ext = e.ext := by
    intro e; unfold checkState; split <;> simp
  unfold parseLine
  (try dsimp only)
  (repeat' split) <;> simp only [hc, hp, hw]

theorem proceed_maxRx (d : D) : (proceed d).ext.maxRx = d.ext.maxRx := by
  unfold proceed
  split
  · rfl
  · split
    · rfl
    · unfold sendNext
      split
      · simp
      · dsimp only
        split
        · simp [SimDev.sendIDRequest_maxRx]
        · rw [act_maxRx, SimDev.sendIDRequest_maxRx]; rfl

theorem work_maxRx (p : Platform) (d : D) : (work p d).ext.maxRx = d.ext.maxRx := by
  unfold work
  dsimp only
  split
  · split
    · rw [parseLine_maxRx]; simp
    · rw [proceed_maxRx, parseLine_maxRx]; simp
  · rw [proceed_maxRx]; unfold flushIfDisconnecting; split <;> simp

theorem run_maxRx (p : Platform) (d : D) (ok : Bool) : (run p d ok).ext.maxRx = d.ext.maxRx := by
  unfold run
  split
  · unfold tryOpen; split <;> rfl
  · split
    · rfl
    · split
      · simp [handleReset]
      · exact work_maxRx p d

theorem step_maxRx (p : Platform) (d : D) (op : Op) : (step p d op).ext.maxRx = d.ext.maxRx := by
  cases op <;> simp only [step, Dev.common_ext, Dev.logConnect_ext, run_maxRx, SimDev.connect_ext]
  all_goals first | rfl | (unfold SimDev.serialLock; split <;> rfl)

theorem exec_maxRx (p : Platform) (d : D) (ops : List Op) :
    (exec (step p) d ops).ext.maxRx = d.ext.maxRx := by
  unfold exec
  induction ops generalizing d with
  | nil => rfl
  | cons op ops ih => rw [List.foldl_cons, ih, step_maxRx]

end Sim7x00

namespace Sim800

theorem act_maxRx (d : D) : (act d).ext.maxRx = d.ext.maxRx := by
  unfold act
  split <;> (try unfold actCstt) <;> (try unfold actCipstart) <;>
    (try unfold actConnected) <;> (try unfold actCiprxget2) <;> (try unfold actReceiving) <;>
    (try dsimp only) <;> (repeat' split) <;> simp

theorem parseLine_maxRx (p : Platform) (d : D) : (parseLine p d).1.ext.maxRx = d.ext.maxRx := by
  have hw : ∀ e : D, (parseWait e).ext = e.ext := by
    intro e; unfold parseWait; (repeat' split) <;> rfl
  have hp : ∀ e : D, (parseReply p e).ext.maxRx = e.ext.maxRx := by
    intro e; unfold parseReply
    split <;> (try dsimp only) <;> (repeat' split) <;>
      simp [SimDev.parseDnsReply_maxRx, SimDev.parseIDReply_maxRx]
  have hc : ∀ e : D, (checkState e).ext = e.ext := by
    intro e; unfold checkState; split <;> simp
  unfold parseLine
  (try dsimp only)
  (repeat' split) <;> simp only [hc, hp, hw]

theorem proceed_maxRx (d : D) : (proceed d).ext.maxRx = d.ext.maxRx := by
  unfold proceed
  split
  · rfl
  · split
    · rfl
    · unfold sendNext
      split
      · simp
      · dsimp only
        split
        · simp [SimDev.sendIDRequest_maxRx]
        · rw [act_maxRx, SimDev.sendIDRequest_maxRx]; rfl

theorem work_maxRx (p : Platform) (d : D) : (work p d).ext.maxRx = d.ext.maxRx := by
  unfold work
  dsimp only
  split
  · split
    · rw [parseLine_maxRx]; simp
    · rw [proceed_maxRx, parseLine_maxRx]; simp
  · rw [proceed_maxRx]; unfold flushIfDisconnecting; split <;> simp

theorem run_maxRx (p : Platform) (d : D) (ok : Bool) : (run p d ok).ext.maxRx = d.ext.maxRx := by
  unfold run
  split
  · unfold tryOpen; split <;> rfl
  · split
    · rfl
    · rw [work_maxRx]; split
      · unfold handleReset; (try dsimp only); (repeat' split) <;> simp
      · rfl

theorem step_maxRx (p : Platform) (d : D) (op : Op) : (step p d op).ext.maxRx = d.ext.maxRx := by
  cases op <;> simp only [step, Dev.common_ext, Dev.logConnect_ext, run_maxRx, SimDev.connect_ext]
  all_goals first | rfl | (unfold SimDev.serialLock; split <;> rfl)

theorem exec_maxRx (p : Platform) (d : D) (ops : List Op) :
    (exec (step p) d ops).ext.maxRx = d.ext.maxRx := by
  unfold exec
  induction ops generalizing d with
  | nil => rfl
  | cons op ops ih => rw [List.foldl_cons, ih, step_maxRx]

end Sim800

end Verif
