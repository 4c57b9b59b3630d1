import Verif.Model.Ops
import Verif.Spec.Parse
import Verif.Lemmas.CString

/-!
# Properties C40, C41, C42: numbers, identifiers and addresses in replies
-/

namespace Verif.Props.Parse

open Verif Verif.Spec

variable {S R : Type}

/-! ## C40 -/

theorem csqToRssi_eq (n : Nat) : SimDev.csqToRssi n = rssiSpec n := by
  unfold SimDev.csqToRssi rssiSpec toInt16 wrapS
  split
  · have : ((4294967296 - 113 + n * 2) % 4294967296 : Nat) = 4294967296 - 113 + n * 2 := by omega
    simp only [this]
    split <;> omega
  · split
    · rw [if_pos (by omega)]
      have : ((4294967296 - 116 + (n - 100)) % 4294967296 : Nat) =
        (4294967296 - 116 + (n - 100)) % 4294967296 := rfl
      split <;> omega
    · rw [if_neg (by omega)]

theorem rssiSpec_range (n : Nat) : -116 ≤ rssiSpec n ∧ rssiSpec n ≤ 0 := by
  unfold rssiSpec; split
  · omega
  · split <;> omega

/-- C40, cellular drivers: a reply `+CSQ: n` (any digits, followed by anything that is not a digit)
is converted as documented. `n` is below 2^32 or, where `long` has 32 bits, arbitrary. Nothing else
changes. -/
theorem C40_value (p : Platform) (d : SimDev S R) (ds rest : List Byte)
    (hl : d.line.cells = b!"+CSQ: " ++ ds ++ rest) (hne : ds ≠ [])
    (hd : ∀ c ∈ ds, isDigit c = true) (hr : isDigit (rest.headD 0) = false)
    (hn : decVal ds < 4294967296 ∨ p.long64 = false) :
    SimDev.parseCsq p d = ({ d with rssi := rssiSpec (decVal ds) }, true) := by
  have hp : d.has b!"+CSQ: " = true := by
    unfold Dev.has
    rw [hasPrefix_iff _ _ (by decide), hl, List.append_assoc]
    exact List.prefix_append _ _
  have hdrop : d.line.drop 6 = ds ++ rest := by
    unfold Mem.drop; rw [hl, List.append_assoc]; rfl
  unfold SimDev.parseCsq
  simp only [hp, if_true, hdrop, strtol_digits _ ds rest hne hd hr, csqToRssi_eq]
  suffices h : rssiSpec (satLong p.long64 (decVal ds) % 4294967296).toNat = rssiSpec (decVal ds) by
    rw [h]
  by_cases hs : decVal ds < 4294967296
  · cases hb : p.long64 with
    | true =>
      have : satLong true (decVal ds) = decVal ds := by
        unfold satLong longMax; simp only [if_true]
        rw [if_neg (by omega), if_neg (by omega)]
      rw [this]; congr 1; omega
    | false =>
      unfold satLong longMax
      simp only [Bool.false_eq_true, if_false]
      split
      · have e : ((2147483647 : Int) % 4294967296).toNat = 2147483647 := by decide
        rw [e]; unfold rssiSpec
        rw [if_neg (by omega), if_neg (by omega), if_neg (by omega), if_neg (by omega)]
      · rw [if_neg (by omega)]; congr 1; omega
  · have hb : p.long64 = false := by
      rcases hn with h | h
      · exact absurd h hs
      · exact h
    rw [hb]
    unfold satLong longMax
    simp only [Bool.false_eq_true, if_false]
    rw [if_pos (by omega)]
    have e : ((2147483647 : Int) % 4294967296).toNat = 2147483647 := by decide
    rw [e]; unfold rssiSpec
    rw [if_neg (by omega), if_neg (by omega), if_neg (by omega), if_neg (by omega)]

/-- C40: whatever follows `+CSQ: ` in the line, the result lies in [-116, 0], so it differs from the
marker of a pending request and from the value that means "unknown"; other lines change nothing. -/
theorem C40_range (p : Platform) (d : SimDev S R) :
    (b!"+CSQ: " <+: d.line.cells →
      (SimDev.parseCsq p d).2 = true ∧ -116 ≤ (SimDev.parseCsq p d).1.getRSSI ∧
      (SimDev.parseCsq p d).1.getRSSI ≤ 0) ∧
    (¬ b!"+CSQ: " <+: d.line.cells → SimDev.parseCsq p d = (d, false)) := by
  have hi : d.has b!"+CSQ: " = true ↔ b!"+CSQ: " <+: d.line.cells :=
    hasPrefix_iff _ _ (by decide)
  constructor
  · intro h
    have hp := hi.mpr h
    simp only [SimDev.parseCsq, hp, if_true, Dev.getRSSI, csqToRssi_eq]
    exact ⟨trivial, rssiSpec_range _⟩
  · intro h
    have hp : ¬ d.has b!"+CSQ: " = true := fun hc => h (hi.mp hc)
    unfold SimDev.parseCsq
    rw [if_neg hp]

/-- C40: without a bound on the number, the conversion is not the documented one where `long` has 64
bits: 4294967296 is taken for 0. -/
theorem C40_wrap (d : SimDev S R) (hl : d.line.cells = b!"+CSQ: 4294967296\r\n\x00") :
    (SimDev.parseCsq ⟨true, true⟩ d).1.getRSSI = -113 ∧ rssiSpec 4294967296 = 0 := by
  have hp : d.has b!"+CSQ: " = true := by
    unfold Dev.has hasPrefix; rw [hl]; decide
  constructor
  · simp only [SimDev.parseCsq, hp, if_true, Dev.getRSSI, Mem.drop, hl]
    decide
  · decide

/-- C40, WiSUN driver: a reply `+CSQ:n` with a non-negative number that fits into 16 bits is reported as
it is. -/
theorem C40_cc (p : Platform) (d : CC1352P7.D) (ds rest : List Byte)
    (hl : d.line.cells = b!"+CSQ:" ++ ds ++ rest) (hne : ds ≠ [])
    (hd : ∀ c ∈ ds, isDigit c = true) (hr : isDigit (rest.headD 0) = false)
    (hn : decVal ds < 32768) :
    CC1352P7.parseCsq p d = ({ d with rssi := (decVal ds : Int) }, true) := by
  have hp : d.has b!"+CSQ:" = true := by
    unfold Dev.has
    rw [hasPrefix_iff _ _ (by decide), hl, List.append_assoc]
    exact List.prefix_append _ _
  have hdrop : d.line.drop 5 = ds ++ rest := by
    unfold Mem.drop; rw [hl, List.append_assoc]; rfl
  unfold CC1352P7.parseCsq
  simp only [hp, if_true, hdrop, strtol_digits _ ds rest hne hd hr]
  congr 2
  rw [satLong_small _ _ (by omega)]
  exact wrapS_small _ _ (by omega) (by omega)

/-- The same for a negative number. -/
theorem C40_cc_negative (p : Platform) (d : CC1352P7.D) (ds rest : List Byte)
    (hl : d.line.cells = b!"+CSQ:-" ++ ds ++ rest)
    (hd : ∀ c ∈ ds, isDigit c = true) (hr : isDigit (rest.headD 0) = false)
    (hn : decVal ds ≤ 32768) :
    CC1352P7.parseCsq p d = ({ d with rssi := -(decVal ds : Int) }, true) := by
  have hp : d.has b!"+CSQ:" = true := by
    unfold Dev.has
    rw [hasPrefix_iff _ _ (by decide), hl, List.append_assoc]
    exact ⟨45 :: (ds ++ rest), rfl⟩
  have hdrop : d.line.drop 5 = 45 :: (ds ++ rest) := by
    unfold Mem.drop; rw [hl, List.append_assoc]; rfl
  have hst : strtol p.long64 (45 :: (ds ++ rest)) = -(decVal ds : Int) := by
    have hsp : (45 :: (ds ++ rest)).dropWhile isSpace = 45 :: (ds ++ rest) := by
      rw [List.dropWhile_cons, if_neg (by decide)]
    unfold strtol
    simp only [hsp, digitsVal_append ds rest 0 hd hr]
    have e : (List.foldl (fun a (c : Byte) => a * 10 + (c.toNat - 48)) 0 ds) = decVal ds := rfl
    rw [e]
    unfold satLong longMax
    cases p.long64 <;> simp only [Bool.false_eq_true, if_false, if_true] <;>
      (rw [if_neg (by omega), if_neg (by omega)])
  unfold CC1352P7.parseCsq
  simp only [hp, if_true, hdrop, hst]
  congr 2
  unfold toInt16 wrapS
  simp only
  split <;> omega

example (d : SimDev S R) (h : d.line.cells = b!"+CSQ: 23,99\r\n\x00") :
    (SimDev.parseCsq ⟨true, true⟩ d).1.getRSSI = -67 := by
  rw [C40_value ⟨true, true⟩ d b!"23" b!",99\r\n\x00" h (by decide) (by decide) (by decide)
    (Or.inl (by decide))]
  show rssiSpec (decVal b!"23") = -67
  decide

/-! ## C41 -/

theorem dbl_eq {v : Nat} (h : v ≤ 9) : v * 2 / 10 + v * 2 % 10 = dbl v := by
  unfold dbl; split <;> omega

theorem luhnLoop_eq (l : List Byte) (h : ∀ c ∈ l, isDigit c = true) (sum : Nat) :
    SimDev.luhnLoop l false sum = sum + luhn (l.map digit) := by
  match l with
  | [] => simp [SimDev.luhnLoop, luhn]
  | [a] =>
    have ha := isDigit_range (h a (by simp))
    simp only [SimDev.luhnLoop, List.map, luhn, digit, Bool.false_eq_true, if_false]
    omega
  | a :: b :: r =>
    have ha := isDigit_range (h a (by simp))
    have hb := isDigit_range (h b (by simp))
    have ih := luhnLoop_eq r (fun c hc => h c (by simp [hc]))
    have hd := dbl_eq (v := b.toNat - 48) (by omega)
    simp only [SimDev.luhnLoop, List.map_cons, luhn, Bool.false_eq_true, if_false,
      Bool.not_false, if_true, Bool.not_true, ih]
    simp only [digit] at *
    omega

theorem takeWhile_split (p : Byte → Bool) (s : List Byte) :
    s = s.takeWhile p ++ s.dropWhile p := List.takeWhile_append_dropWhile.symm

theorem headD_dropWhile (s : List Byte) : isDigit ((s.dropWhile isDigit).headD 0) = false := by
  induction s with
  | nil => rfl
  | cons c cs ih =>
    rw [List.dropWhile_cons]
    split
    · exact ih
    · rename_i h; simpa using h

theorem takeWhile_append_stop {p : Byte → Bool} {ds rest : List Byte} (hd : ∀ c ∈ ds, p c = true)
    (hr : p (rest.headD 0) = false) : (ds ++ rest).takeWhile p = ds := by
  rw [List.takeWhile_append_of_pos hd]
  cases rest with
  | nil => simp
  | cons c cs => simp only [List.headD_cons] at hr; simp [hr]

theorem mem_takeWhile_digit {s : List Byte} {c : Byte} (h : c ∈ s.takeWhile isDigit) :
    isDigit c = true := by
  have := List.all_takeWhile (l := s) (p := isDigit)
  exact (List.all_eq_true.mp this) c h

/-- The check in the code is the specified one. -/
theorem C41_check (s : List Byte) : SimDev.iccidValid s = true ↔ ValidIccid s := by
  unfold SimDev.iccidValid
  simp only [Bool.and_eq_true, decide_eq_true_eq, beq_iff_eq]
  constructor
  · rintro ⟨⟨⟨h1, h2, h3⟩, h4⟩, h5⟩
    refine ⟨s.takeWhile isDigit, s.dropWhile isDigit, takeWhile_split _ _,
      fun c hc => mem_takeWhile_digit hc, headD_dropWhile s, h1, h2, ?_, ?_⟩
    · match s, h4, h5 with
      | a :: b :: r, h4, h5 =>
        simp only [List.headD_cons, List.tail_cons] at h4 h5
        subst h4; subst h5
        exact ⟨r.takeWhile isDigit, rfl⟩
      | [a], _, h5 => simp at h5
      | [], h4, _ => simp at h4
    · rw [luhnLoop_eq _ (fun c hc => mem_takeWhile_digit (by simpa using hc))] at h3
      simpa using h3
  · rintro ⟨ds, rest, rfl, hd, hr, h1, h2, h3, h4⟩
    have ht := takeWhile_append_stop hd hr
    rw [ht, luhnLoop_eq _ (fun c hc => hd c (by simpa using hc))]
    obtain ⟨t, rfl⟩ := h3
    exact ⟨⟨⟨h1, h2, by simpa using h4⟩, rfl⟩, rfl⟩

theorem set_take {l : List Byte} {k : Nat} (c : Byte) (h : k < l.length) :
    (l.set k c).take (k + 1) = l.take k ++ [c] := by
  rw [List.take_set, List.take_add_one, List.getElem?_eq_getElem h]
  simp only [Option.toList_some]
  rw [List.set_append_right _ _ (by simp; omega), List.length_take]
  simp [Nat.min_eq_left (Nat.le_of_lt h)]

/-- The copy loop stores everything before the stop byte, at most `max - 1` bytes, and a zero. -/
theorem copyUntil_spec (stopAt : Byte) (max : Nat) (fuel : Nat) (src : List Byte) (k : Nat) (m : Mem)
    (hm : m.cells.length = max) (hk : k < max) (hf : max - 1 - k ≤ fuel)
    (hs : max - 1 - k ≤ src.length) :
    ∃ t, t = (src.take (max - 1 - k)).takeWhile (· ≠ stopAt) ∧
      SimDev.copyUntil stopAt max fuel src k m =
        { cells := m.cells.take k ++ t ++ 0 :: m.cells.drop (k + t.length + 1), oob := m.oob } := by
  have hstop : ∀ (m : Mem), m.cells.length = max →
      m.store k 0 = { cells := m.cells.take k ++ 0 :: m.cells.drop (k + 1), oob := m.oob } := by
    intro m hm
    unfold Mem.store
    congr 1
    · rw [List.set_eq_take_append_cons_drop, if_pos (by omega)]
    · rw [decide_eq_false (by omega), Bool.or_false]
  induction fuel generalizing src k m with
  | zero =>
    have : max - 1 - k = 0 := by omega
    exact ⟨[], by simp [this], by simp [SimDev.copyUntil, hstop m hm]⟩
  | succ fuel ih =>
    unfold SimDev.copyUntil
    by_cases hc : src.headD 0 ≠ stopAt ∧ k < max - 1
    · rw [if_pos hc]
      obtain ⟨c, cs, rfl⟩ : ∃ c cs, src = c :: cs := by
        cases src with
        | nil => simp only [List.length_nil] at hs; omega
        | cons c cs => exact ⟨c, cs, rfl⟩
      simp only [List.headD_cons, List.tail_cons, List.length_cons] at hc hs ⊢
      have hst : (m.store k c).cells.length = max := by simp [Mem.store, hm]
      have hoob : (m.store k c).oob = m.oob := by
        simp only [Mem.store]; rw [decide_eq_false (by omega), Bool.or_false]
      obtain ⟨t, ht, he⟩ := ih cs (k + 1) (m.store k c) hst (by omega) (by omega) (by omega)
        (by
          intro m hm
          unfold Mem.store
          congr 1
          · rw [List.set_eq_take_append_cons_drop, if_pos (by omega)]
          · rw [decide_eq_false (by omega), Bool.or_false])
      refine ⟨c :: t, ?_, ?_⟩
      · have e : max - 1 - k = (max - 1 - (k + 1)) + 1 := by omega
        rw [e, List.take_succ_cons, List.takeWhile_cons, if_pos (by simpa using hc.1), ht]
      · rw [he, hoob]
        congr 1
        have e1 : (m.store k c).cells = m.cells.set k c := rfl
        rw [e1, set_take c (by omega), List.drop_set_of_lt (by omega)]
        simp only [List.append_assoc, List.cons_append, List.nil_append, List.length_cons]
        have : k + 1 + t.length + 1 = k + (t.length + 1) + 1 := by omega
        rw [this]
    · rw [if_neg hc]
      refine ⟨[], ?_, by simp [hstop m hm]⟩
      by_cases hk1 : k < max - 1
      · have hh : src.headD 0 = stopAt := by
          by_cases h : src.headD 0 = stopAt
          · exact h
          · exact absurd ⟨h, hk1⟩ hc
        cases src with
        | nil => simp
        | cons c cs =>
          simp only [List.headD_cons] at hh
          have e : max - 1 - k = (max - 1 - (k + 1)) + 1 := by omega
          rw [e, List.take_succ_cons, List.takeWhile_cons, if_neg (by simpa using hh)]
      · have e : max - 1 - k = 0 := by omega
        simp [e]

/-- C41: the reply parser, when an ICCID was requested. A line is accepted only if it carries a
valid ICCID. The buffer then holds exactly that text, up to the carriage return or 23 bytes, followed
by a zero; nothing is written outside of the buffer. A line that is not accepted changes nothing. -/
theorem C41_parse (d : SimDev S R) (ht : d.ext.id.get 2 = IdType.iccid.code)
    (hid : d.ext.id.cells.length = idMax) (hl : d.line.cells.length = lineMax + 1) :
    ((SimDev.parseIDReply d).2 = true →
      ValidIccid (idText d.line.cells) ∧
      (SimDev.parseIDReply d).1.ext.id.cells =
        idStored d.line.cells ++ 0 :: d.ext.id.cells.drop ((idStored d.line.cells).length + 1) ∧
      (SimDev.parseIDReply d).1.ext.id.oob = d.ext.id.oob) ∧
    ((SimDev.parseIDReply d).2 = false → (SimDev.parseIDReply d).1 = d) := by
  have hgo : ∀ src : List Byte, src.length ≥ 23 → src = idText d.line.cells →
      ((SimDev.parseIDReply.go d src).2 = true →
        ValidIccid (idText d.line.cells) ∧
        (SimDev.parseIDReply.go d src).1.ext.id.cells =
          idStored d.line.cells ++ 0 :: d.ext.id.cells.drop ((idStored d.line.cells).length + 1) ∧
        (SimDev.parseIDReply.go d src).1.ext.id.oob = d.ext.id.oob) ∧
      ((SimDev.parseIDReply.go d src).2 = false → (SimDev.parseIDReply.go d src).1 = d) := by
    intro src hlen hsrc
    unfold SimDev.parseIDReply.go
    simp only [ht, if_true]
    by_cases hv : SimDev.iccidValid src = true
    · simp only [hv, if_true]
      refine ⟨fun _ => ?_, fun h => by simp at h⟩
      obtain ⟨t, h1, h2⟩ := copyUntil_spec cr idMax idMax src 0 d.ext.id hid (by decide) (by decide)
        (by simpa [idMax] using hlen)
      have htt : t = idStored d.line.cells := by
        rw [h1, hsrc]; simp only [idStored, idMax, cr]
      rw [← htt]
      refine ⟨hsrc ▸ (C41_check src).mp hv, ?_, ?_⟩
      · rw [h2]; simp
      · rw [h2]
    · simp only [hv, Bool.false_eq_true, if_false]
      exact ⟨fun h => by simp at h, fun _ => trivial⟩
  have hi : d.has b!"+ICCID: " = true ↔ b!"+ICCID: " <+: d.line.cells :=
    hasPrefix_iff _ _ (by decide)
  unfold SimDev.parseIDReply
  split
  · exact ⟨fun h => by simp at h, fun _ => rfl⟩
  · split
    · rename_i hp
      refine hgo _ (by simp [Mem.drop, hl, lineMax]) ?_
      unfold idText; rw [if_pos (hi.mp hp)]; rfl
    · rename_i hp
      split
      · exact ⟨fun h => by simp at h, fun _ => rfl⟩
      · refine hgo _ (by simp [Mem.drop, hl, lineMax]) ?_
        unfold idText; rw [if_neg (fun h => hp (hi.mpr h))]; simp [Mem.drop]

/-- A plausible reply. -/
example : SimDev.iccidValid b!"89490200001632477314\r\n" = true := by decide

/-! ## C42 -/

theorem afterQuotes_skip {h : List Byte} (n : Nat) (hq : (34 : Byte) ∉ h) (r : List Byte) :
    SimDev.afterQuotes (n + 1) (h ++ 34 :: r) = SimDev.afterQuotes n r := by
  induction h with
  | nil => simp [SimDev.afterQuotes]
  | cons c cs ih =>
    simp only [List.mem_cons, not_or] at hq
    have : c ≠ 34 := fun e => hq.1 e.symm
    simp only [List.cons_append, SimDev.afterQuotes, this, if_false]
    exact ih hq.2

theorem filter_nil {h : List Byte} (hq : (34 : Byte) ∉ h) :
    h.filter (fun c => decide (c = 34)) = [] := by
  rw [List.filter_eq_nil_iff]
  intro c hc
  simp only [decide_eq_true_eq]
  intro e; exact hq (e ▸ hc)

theorem takeWhile_nz {l r : List Byte} (h : (0 : Byte) ∉ l) :
    (l ++ 0 :: r).takeWhile (fun x => decide (x ≠ 0)) = l := cstr_append_zero h

theorem C42_dns_core (d : SimDev S R) (host ip tail junk : List Byte)
    (hl : d.line.cells =
      b!"+CDNSGIP: 1,\"" ++ host ++ b!"\",\"" ++ ip ++ b!"\"" ++ tail ++ 0 :: junk)
    (hh : (34 : Byte) ∉ host ∧ (0 : Byte) ∉ host) (hi : (34 : Byte) ∉ ip ∧ (0 : Byte) ∉ ip)
    (ht : (34 : Byte) ∉ tail ∧ (0 : Byte) ∉ tail) :
    d.has b!"+CDNSGIP: 1" = true ∧ SimDev.quotes d.line.cells = 4 ∧
    SimDev.cutQuotes (SimDev.afterQuotes 3 d.line.cells) = ip ++ 0 :: (tail ++ 0 :: junk) := by
  refine ⟨?_, ?_, ?_⟩
  · unfold Dev.has
    rw [hasPrefix_iff _ _ (by decide), hl]
    simp only [List.append_assoc]
    exact ⟨b!",\"" ++ (host ++ (b!"\",\"" ++ (ip ++ (b!"\"" ++ (tail ++ 0 :: junk))))), rfl⟩
  · unfold SimDev.quotes
    rw [hl, cstr_append_zero]
    · simp only [List.filter_append, filter_nil hh.1, filter_nil hi.1, filter_nil ht.1]
      rfl
    · simp only [List.mem_append, not_or]
      exact ⟨⟨⟨⟨⟨by decide, hh.2⟩, by decide⟩, hi.2⟩, by decide⟩, ht.2⟩
  · have : SimDev.afterQuotes 3 d.line.cells = ip ++ 34 :: (tail ++ 0 :: junk) := by
      rw [hl]
      simp only [List.append_assoc]
      rw [show (b!"+CDNSGIP: 1,\"" : List Byte) = b!"+CDNSGIP: 1," ++ [34] from rfl,
        List.append_assoc, List.singleton_append, afterQuotes_skip 2 (by decide),
        show (b!"\",\"" : List Byte) = 34 :: (b!"," ++ [34]) from rfl, List.cons_append,
        afterQuotes_skip 1 hh.1]
      simp [SimDev.afterQuotes]
    rw [this]
    unfold SimDev.cutQuotes
    have h0 : (0 : Byte) ∉ ip ++ 34 :: tail := by
      simp only [List.mem_append, List.mem_cons, not_or]
      exact ⟨hi.2, by decide, ht.2⟩
    have e : ip ++ 34 :: (tail ++ 0 :: junk) = (ip ++ 34 :: tail) ++ 0 :: junk := by simp
    rw [e, takeWhile_nz h0]
    have hdw : ((ip ++ 34 :: tail) ++ 0 :: junk).dropWhile (fun x => decide (x ≠ 0)) = 0 :: junk := by
      rw [List.dropWhile_append_of_pos]
      · simp
      · intro a ha; simp only [ne_eq, decide_eq_true_eq]; intro e; exact h0 (e ▸ ha)
    rw [hdw]
    have hm : ∀ l : List Byte, (34 : Byte) ∉ l → l.map (fun c => if c = 34 then 0 else c) = l := by
      intro l hl
      conv => rhs; rw [← List.map_id l]
      apply List.map_congr_left
      intro c hc
      have hne : c ≠ 34 := fun e => hl (by rw [← e]; exact hc)
      rw [if_neg hne]; rfl
    rw [List.map_append, List.map_cons, hm _ hi.1, hm _ ht.1]
    simp

/-- C42: from a reply `+CDNSGIP: 1,"host","ip"` the address is stored, with its terminating zero, if it
has at most 15 characters. `tail` is what follows the last quote up to the terminating zero; it has no
further quotes. -/
theorem C42_dns (d : SimDev S R) (host ip tail junk : List Byte)
    (hl : d.line.cells =
      b!"+CDNSGIP: 1,\"" ++ host ++ b!"\",\"" ++ ip ++ b!"\"" ++ tail ++ 0 :: junk)
    (hh : (34 : Byte) ∉ host ∧ (0 : Byte) ∉ host) (hi : (34 : Byte) ∉ ip ∧ (0 : Byte) ∉ ip)
    (ht : (34 : Byte) ∉ tail ∧ (0 : Byte) ∉ tail) (hip : d.ext.ip.cells.length = 16)
    (hlen : ip.length ≤ 15) :
    (SimDev.parseDnsReply d).2 = true ∧
    (SimDev.parseDnsReply d).1.ext.ip.cells = ip ++ 0 :: d.ext.ip.cells.drop (ip.length + 1) ∧
    cstr (SimDev.parseDnsReply d).1.ext.ip.cells = ip ∧
    (SimDev.parseDnsReply d).1.ext.ip.oob = d.ext.ip.oob ∧
    (SimDev.parseDnsReply d).1.cs = d.cs := by
  obtain ⟨e1, e2, e3⟩ := C42_dns_core d host ip tail junk hl hh hi ht
  unfold SimDev.parseDnsReply
  simp only [e1, if_true, e2, e3]
  rw [if_neg (by decide)]
  simp only
  have hc : cstr (ip ++ 0 :: (tail ++ 0 :: junk)) = ip := cstr_append_zero hi.2
  have hcells : (SimDev.strcpy d.ext.ip (ip ++ 0 :: (tail ++ 0 :: junk))).cells =
      ip ++ 0 :: d.ext.ip.cells.drop (ip.length + 1) := by
    unfold SimDev.strcpy
    simp only [hc]
    rw [List.take_of_length_le]
    · simp
    · simp only [List.length_append, List.length_drop, List.length_cons, List.length_nil]; omega
  refine ⟨trivial, hcells, ?_, ?_, trivial⟩
  · rw [hcells]; exact cstr_append_zero hi.2
  · unfold SimDev.strcpy
    simp only [hc]
    rw [decide_eq_false (by omega), Bool.or_false]
example (d : SimDev S R) (h : d.ext.ip.cells.length = 16)
    (hl : d.line.cells = b!"+CDNSGIP: 1,\"a.b\",\"10.0.0.1\"\r\n\x00") :
    cstr (SimDev.parseDnsReply d).1.ext.ip.cells = b!"10.0.0.1" :=
  (C42_dns d b!"a.b" b!"10.0.0.1" b!"\r\n" [] hl (by decide) (by decide) (by decide) h
    (by decide)).2.2.1

/-- C42: a longer address is written past the end of the 16 byte buffer. -/
theorem C42_overflow (d : SimDev S R) (host ip tail junk : List Byte)
    (hl : d.line.cells =
      b!"+CDNSGIP: 1,\"" ++ host ++ b!"\",\"" ++ ip ++ b!"\"" ++ tail ++ 0 :: junk)
    (hh : (34 : Byte) ∉ host ∧ (0 : Byte) ∉ host) (hi : (34 : Byte) ∉ ip ∧ (0 : Byte) ∉ ip)
    (ht : (34 : Byte) ∉ tail ∧ (0 : Byte) ∉ tail) (hip : d.ext.ip.cells.length = 16)
    (hlen : 15 < ip.length) :
    (SimDev.parseDnsReply d).1.ub = true := by
  obtain ⟨e1, e2, e3⟩ := C42_dns_core d host ip tail junk hl hh hi ht
  unfold SimDev.parseDnsReply
  simp only [e1, if_true, e2, e3]
  rw [if_neg (by decide)]
  simp only
  have hc : cstr (ip ++ 0 :: (tail ++ 0 :: junk)) = ip := cstr_append_zero hi.2
  unfold SimDev.strcpy
  simp only [hc]
  rw [decide_eq_true (by omega), Bool.or_true, Bool.or_true]

end Verif.Props.Parse

