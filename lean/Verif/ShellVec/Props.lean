import Verif.ShellVec.Model
import Verif.ShellVec.Spec
import Verif.ShellMem.Props
/-
C113, C114: `vreg get` and `vreg set`.
-/
namespace Verif.ShellVec
open Verif.Shell (Text)
open Verif.ShellMem (number bytesOf digitsOf decimal octal hex IsWidth)
open Verif.ShellMem.Spec (Number Shows)
open Verif.Setup.Spec (Numeral IsDigit)

/-! ## Numbers -/

theorem atoi_number {s : Text} {n : Nat} (max : Nat) (h : Number 10 s n) :
    atoi max s = if n ≤ max then some n else none := by
  cases h with
  | plain hr hs hn =>
    have hl := Setup.takeDigits_length hn
    have hv := Setup.takeDigits_numeral hn 0
    unfold atoi
    dsimp only
    rw [if_neg (fun hc => hc.elim hs (by omega)), hv, Nat.zero_mul, Nat.zero_add]

theorem dropMark_numeral {s : Text} {n : Nat} (h : Numeral 16 s n) : dropMark s = s := by
  have key : ∀ {x : Char} {t : Text}, s = '0' :: x :: t → x ≠ 'x' ∧ x ≠ 'X' := by
    intro x t e
    subst e
    cases h with
    | cons _ _ h =>
      cases h with
      | cons hd hb _ =>
        have := Setup.digit_not_special (Setup.digit_of_isDigit hd hb) (by decide)
        exact ⟨this.2.2.2.1, this.2.2.2.2⟩
  unfold dropMark
  split
  · exact absurd rfl (key rfl).1
  · exact absurd rfl (key rfl).2
  · rfl

theorem hexAtoi_number {s : Text} {n : Nat} (h : Number 16 s n) :
    hexAtoi s = if n < 2 ^ 64 then some n else none := by
  have key : ∀ {t : Text}, dropMark s = t → t ≠ [] → Numeral 16 t n →
      hexAtoi s = if n < 2 ^ 64 then some n else none := by
    intro t e ht hn
    have hl := Setup.takeDigits_length hn
    have hv := Setup.takeDigits_numeral hn 0
    unfold hexAtoi
    dsimp only
    rw [e, if_neg (fun hc => hc.elim ht (by omega)), hv, Nat.zero_mul, Nat.zero_add]
  cases h with
  | plain _ hs hn => exact key (dropMark_numeral hn) hs hn
  | marked hx ht hn =>
    rcases hx with rfl | rfl
    · exact key rfl ht hn
    · exact key rfl ht hn

theorem isDigit_upper {c : Char} {d : Nat} (h : IsDigit c d) : IsDigit (upper c) d := by
  rcases h with h | h
  · have hd : d < 16 := by
      rw [List.getElem?_eq_some_iff] at h
      exact h.1
    have key : ∀ d : Fin 16, ∀ c ∈ Setup.Spec.digits[d.val]?, IsDigit (upper c) d.val := by
      unfold IsDigit
      decide
    exact key ⟨d, hd⟩ c h
  · have key : ∀ p ∈ Setup.Spec.upper, upper p.1 = p.1 := by decide
    rw [key _ h]
    exact Or.inr h

theorem numeral_upper {p : Text} {n : Nat} (h : Numeral 16 p n) : Numeral 16 (p.map upper) n := by
  induction h with
  | nil => exact .nil
  | @cons c d t n hd hb _ ih =>
    have := Numeral.cons (isDigit_upper hd) hb ih
    rw [List.length_map] at this
    exact this

/-! ## Elements -/

theorem get_element {db : List (BitVec 8)} {width i : Nat} (h : i < Spec.count db width) :
    get db (width / 8) i = Spec.element db width i := by
  unfold Spec.count at h
  have hk : 0 < width / 8 := by
    rcases Nat.eq_zero_or_pos (width / 8) with h0 | h0
    · rw [h0, Nat.div_zero] at h; omega
    · exact h0
  have hfit : i * (width / 8) + width / 8 ≤ db.length := by
    have := (Nat.le_div_iff_mul_le hk).mp (show i + 1 ≤ db.length / (width / 8) by omega)
    rw [Nat.add_mul, Nat.one_mul] at this
    exact this
  unfold get Spec.element
  refine ShellMem.number_stored _ _ _ _ ?_ (fun j hj => ?_)
  · rw [List.length_take, List.length_drop]; omega
  · have hlt : i * (width / 8) + j < db.length := by omega
    refine ⟨db[i * (width / 8) + j], ?_, ?_⟩
    · rw [List.getElem?_take_of_lt hj, List.getElem?_drop, List.getElem?_eq_getElem hlt]
    · rw [List.getD_eq_getElem?_getD, List.getElem?_eq_getElem hlt, Option.getD_some]

theorem element_lt {db : List (BitVec 8)} {width i : Nat} (hw : IsWidth width)
    (h : i < Spec.count db width) : Spec.element db width i < 2 ^ width := by
  rw [← get_element h]
  have h1 := ShellMem.number_lt ((db.drop (i * (width / 8))).take (width / 8))
  have h2 : (256 : Nat) ^ ((db.drop (i * (width / 8))).take (width / 8)).length ≤ 256 ^ (width / 8) :=
    Nat.pow_le_pow_right (by decide) (by rw [List.length_take]; omega)
  have h3 : (2 : Nat) ^ width = 256 ^ (width / 8) := by
    have : width = 8 * (width / 8) := by unfold IsWidth at hw; omega
    rw [this, Nat.pow_mul, ← this]
  unfold get
  omega

theorem format_spec {f wd : Text} {l : Char} {width : Nat} (h : Spec.Format f wd l width) :
    f.headD 'x' = l ∧ atoi (2 ^ 31 - 1) (if wd = [] then "32".toList else wd) = some width
      ∧ legal width = true ∧ IsWidth width ∧ l ∈ "oduxX".toList := by
  cases h with
  | default => exact ⟨rfl, by decide +kernel, rfl, by unfold IsWidth; decide, by decide⟩
  | @given l wd width hl hw =>
    have key : ∀ p ∈ [(['8'], 8), (['1', '6'], 16), (['3', '2'], 32), (['6', '4'], 64)],
        atoi (2 ^ 31 - 1) (if p.1 = [] then "32".toList else p.1) = some p.2 ∧ legal p.2 = true
          ∧ IsWidth p.2 := by
      unfold IsWidth
      decide +kernel
    obtain ⟨h1, h2, h3⟩ := key _ hw
    exact ⟨rfl, h1, h2, h3, hl⟩

theorem formatValue_shows {db : List (BitVec 8)} {l : Char} {width i : Nat} (hl : l ∈ "oduxX".toList)
    (hw : IsWidth width) (hi : i < Spec.count db width)
    (hd : l = 'd' → Spec.element db width i < 2 ^ (width - 1)) :
    ∃ t, formatValue db l width i = some t ∧ Shows l width (Spec.element db width i) t := by
  have hlt := element_lt hw hi
  have hs := ShellMem.shows hl hw hlt
  unfold formatValue
  dsimp only
  rw [if_neg (by unfold Spec.count at hi; omega), get_element hi]
  simp only [show "oduxX".toList = ['o', 'd', 'u', 'x', 'X'] from rfl, List.mem_cons, List.not_mem_nil,
    or_false] at hl
  rcases hl with rfl | rfl | rfl | rfl | rfl
  · exact ⟨_, rfl, hs⟩
  · refine ⟨_, rfl, ?_⟩
    rw [if_pos rfl, ShellMem.signed, if_pos (hd rfl)] at hs
    exact hs
  · exact ⟨_, rfl, hs⟩
  · exact ⟨_, rfl, hs⟩
  · refine ⟨_, rfl, ?_⟩
    rw [if_neg (by decide), if_pos (by decide)] at hs
    unfold Shows at hs ⊢
    have := hs.1 (by decide)
    refine ⟨fun _ => ⟨by rw [List.length_map]; exact this.1, numeral_upper this.2⟩, ?_, ?_, ?_⟩
    · intro h; exact absurd h (by decide)
    · intro h; exact absurd h (by decide)
    · intro h; exact absurd h (by decide)

/-! ## vreg get -/

/-- C113: `vreg get NAME:INDEX` shows the element in the format asked for.

Missing: negative elements with `d`, see `C113_signed_violated`. -/
theorem C113_element_partial (regs : Registers) (name index format wd : Text) (db : List (BitVec 8))
    (l : Char) (width i : Nat) (hr : regs name = some db) (hf : Spec.Format format wd l width)
    (hi : Number 10 index i) (hcount : i < Spec.count db width) (hsmall : i < 2 ^ 31)
    (hd : l = 'd' → Spec.element db width i < 2 ^ (width - 1)) :
    ∃ t, vregGet regs .halted name index format wd = .text t
      ∧ Shows l width (Spec.element db width i) t := by
  obtain ⟨h1, h2, h3, hw, hl⟩ := format_spec hf
  obtain ⟨t, ht, hs⟩ := formatValue_shows hl hw hcount hd
  refine ⟨t, ?_, hs⟩
  have hne : index ≠ [] := by
    cases hi with
    | plain _ h _ => exact h
  unfold vregGet
  dsimp only
  rw [h1, h2]
  dsimp only
  rw [if_neg (by decide), hr]
  dsimp only
  rw [if_neg hne, atoi_number _ hi, if_pos (by omega)]
  dsimp only
  rw [if_pos h3, ht]

/-- C113: an element the register does not have is refused, and so is everything while the core runs
and every name that is no register's. -/
theorem C113_refused (regs : Registers) (st : DebugMem.RunStatus) (name index format wd : Text)
    (l : Char) (width i : Nat) (hf : Spec.Format format wd l width) (hi : Number 10 index i)
    (h : st ≠ .halted ∨ ∀ db, regs name = some db → Spec.count db width ≤ i) :
    vregGet regs st name index format wd = .error := by
  obtain ⟨h1, h2, h3, hw, hl⟩ := format_spec hf
  have hne : index ≠ [] := by
    cases hi with
    | plain _ h _ => exact h
  unfold vregGet
  dsimp only
  rw [h1, h2]
  dsimp only
  by_cases hst : st = .halted
  · rw [if_neg (fun x => x hst)]
    replace h := h.resolve_left (fun x => x hst)
    cases hr : regs name with
    | none => rfl
    | some db =>
      dsimp only
      rw [if_neg hne, atoi_number _ hi]
      by_cases hs : i ≤ 2 ^ 31 - 1
      · rw [if_pos hs]
        dsimp only
        have hv : formatValue db l width i = none := by
          unfold formatValue
          dsimp only
          rw [if_pos (show i ≥ db.length / (width / 8) from h db hr)]
        rw [if_pos h3, hv]
      · rw [if_neg hs]
  · rw [if_pos hst]

theorem formatFrom_joined {db : List (BitVec 8)} {l : Char} {width : Nat} (hl : l ∈ "oduxX".toList)
    (hw : IsWidth width) : ∀ n i, i + n ≤ Spec.count db width →
    (∀ j, l = 'd' → j < Spec.count db width → Spec.element db width j < 2 ^ (width - 1)) →
    ∃ ts : List Text, ts.length = n
      ∧ (∀ j t, ts[j]? = some t → Shows l width (Spec.element db width (i + j)) t)
      ∧ formatFrom db l width [] n i = Spec.joined ts
      ∧ formatFrom db l width [':'] n i = (if n = 0 then [] else ':' :: Spec.joined ts) := by
  intro n
  induction n with
  | zero =>
    intro i _ _
    exact ⟨[], rfl, fun j t h => by simp at h, rfl, rfl⟩
  | succ n ih =>
    intro i hle hd
    obtain ⟨ts, h1, h2, h3, h4⟩ := ih (i + 1) (by omega) hd
    obtain ⟨t, ht, hs⟩ := formatValue_shows (db := db) (i := i) hl hw (by omega)
      (fun h => hd i h (by omega))
    refine ⟨t :: ts, by rw [List.length_cons, h1], ?_, ?_, ?_⟩
    · intro j u hj
      cases j with
      | zero =>
        injection hj with hj
        subst hj
        exact hs
      | succ j =>
        rw [List.getElem?_cons_succ] at hj
        have := h2 j u hj
        rw [show i + (j + 1) = i + 1 + j by omega]
        exact this
    · rw [formatFrom, ht, h4, Option.getD_some, List.nil_append]
      cases ts with
      | nil =>
        rw [← h1]
        simp [Spec.joined]
      | cons u us =>
        rw [← h1, if_neg (by simp)]
        rfl
    · rw [formatFrom, ht, h4, Option.getD_some, if_neg (Nat.succ_ne_zero n)]
      cases ts with
      | nil =>
        rw [← h1]
        simp [Spec.joined]
      | cons u us =>
        rw [← h1, if_neg (by simp)]
        rfl

/-- C113: `vreg get NAME` shows all elements in order with colons between them. -/
theorem C113_all_partial (regs : Registers) (name format wd : Text) (db : List (BitVec 8))
    (l : Char) (width : Nat) (hr : regs name = some db) (hf : Spec.Format format wd l width)
    (hd : ∀ j, l = 'd' → j < Spec.count db width → Spec.element db width j < 2 ^ (width - 1)) :
    ∃ ts : List Text, vregGet regs .halted name [] format wd = .text (Spec.joined ts)
      ∧ ts.length = Spec.count db width
      ∧ ∀ j t, ts[j]? = some t → Shows l width (Spec.element db width j) t := by
  obtain ⟨h1, h2, h3, hw, hl⟩ := format_spec hf
  obtain ⟨ts, e1, e2, e3, -⟩ := formatFrom_joined (db := db) hl hw (Spec.count db width) 0 (by omega) hd
  refine ⟨ts, ?_, e1, fun j t h => by have := e2 j t h; rwa [Nat.zero_add] at this⟩
  unfold vregGet
  dsimp only
  rw [h1, h2]
  dsimp only
  rw [if_neg (by decide), hr]
  dsimp only
  rw [if_pos rfl, if_pos h3, ← e3]
  rfl

/-- A negative element is shown with `d` as if it had no sign. -/
theorem C113_signed_violated (regs : Registers) (name index wd : Text) (db : List (BitVec 8))
    (width i : Nat) (hr : regs name = some db) (hf : Spec.Format ['d'] wd 'd' width)
    (hi : Number 10 index i) (hcount : i < Spec.count db width) (hsmall : i < 2 ^ 31)
    (hneg : 2 ^ (width - 1) ≤ Spec.element db width i) :
    ∃ t, vregGet regs .halted name index ['d'] wd = .text t
      ∧ Numeral 10 t (Spec.element db width i)
      ∧ ¬ Shows 'd' width (Spec.element db width i) t := by
  obtain ⟨h1, h2, h3, hw, hl⟩ := format_spec hf
  have hlt := element_lt hw hcount
  have h64 : Spec.element db width i < 2 ^ 64 := Nat.lt_of_lt_of_le hlt
    (Nat.pow_le_pow_right (by decide) (by unfold IsWidth at hw; omega))
  have hdec := (ShellMem.decimal_spec h64).1
  refine ⟨decimal (Spec.element db width i), ?_, hdec, ?_⟩
  · have hne : index ≠ [] := by
      cases hi with
      | plain _ h _ => exact h
    have ht : formatValue db 'd' width i = some (decimal (Spec.element db width i)) := by
      unfold formatValue
      dsimp only
      rw [if_neg (by unfold Spec.count at hcount; omega), get_element hcount, if_pos rfl]
    unfold vregGet
    dsimp only
    rw [h1, h2]
    dsimp only
    rw [if_neg (by decide), hr]
    dsimp only
    rw [if_neg hne, atoi_number _ hi, if_pos (by omega)]
    dsimp only
    rw [if_pos h3, ht]
  · intro hs
    obtain ⟨t, e, -⟩ := (hs.2.2.2 rfl).2 hneg
    rw [e] at hdec
    generalize Spec.element db width i = m at hdec
    cases hdec with
    | cons hd hb _ =>
      have := Setup.digit_not_special (Setup.digit_of_isDigit hd hb) (by decide)
      exact this.2.1 rfl

/-! ## vreg set -/

theorem set_length {db : List (BitVec 8)} {k i : Nat} (v : BitVec 64) (h : i * k + k ≤ db.length) :
    (set db k i v).length = db.length := by
  unfold set
  rw [List.length_append, List.length_append, List.length_take, List.length_drop,
    ShellMem.bytesOf_length]
  omega

theorem set_spec {db : List (BitVec 8)} {width i n : Nat} (h : i < Spec.count db width)
    (hw : IsWidth width) (hn : n < 2 ^ 64) :
    let db' := set db (width / 8) i (BitVec.ofNat 64 n)
    db'.length = db.length ∧ Spec.element db' width i = n % 2 ^ width
    ∧ ∀ j, j < i * (width / 8) ∨ i * (width / 8) + width / 8 ≤ j → db'[j]? = db[j]? := by
  have hpos : 0 < width / 8 ∧ width = 8 * (width / 8) := by unfold IsWidth at hw; omega
  have hfit : i * (width / 8) + width / 8 ≤ db.length := by
    have := (Nat.le_div_iff_mul_le hpos.1).mp (show i + 1 ≤ db.length / (width / 8) from h)
    rw [Nat.add_mul, Nat.one_mul] at this
    exact this
  intro db'
  have hlen : db'.length = db.length := set_length _ hfit
  have hb := ShellMem.bytesOf_length (BitVec.ofNat 64 n) (width / 8)
  have ht : (db.take (i * (width / 8))).length = i * (width / 8) := by rw [List.length_take]; omega
  refine ⟨hlen, ?_, ?_⟩
  · rw [← get_element (by unfold Spec.count; rw [hlen]; exact h)]
    have : (db'.drop (i * (width / 8))).take (width / 8) = bytesOf (BitVec.ofNat 64 n) (width / 8) := by
      show ((db.take (i * (width / 8)) ++ bytesOf (BitVec.ofNat 64 n) (width / 8)
        ++ db.drop (i * (width / 8) + width / 8)).drop (i * (width / 8))).take (width / 8) = _
      rw [List.append_assoc, List.drop_left' ht, List.take_left' hb]
    unfold get
    rw [this, ShellMem.number_bytesOf, BitVec.toNat_ofNat, Nat.mod_eq_of_lt hn]
    congr 1
    rw [hpos.2, Nat.pow_mul, ← hpos.2]
  · intro j hj
    show (db.take (i * (width / 8)) ++ bytesOf (BitVec.ofNat 64 n) (width / 8)
        ++ db.drop (i * (width / 8) + width / 8))[j]? = _
    rcases hj with hj | hj
    · rw [List.append_assoc, List.getElem?_append_left (by omega), List.getElem?_take_of_lt hj]
    · rw [List.getElem?_append_right (by rw [List.length_append]; omega), List.getElem?_drop,
        List.length_append, ht, hb]
      congr 1
      omega

theorem writeValue_spec {value : Text} {db : List (BitVec 8)} {l : Char} {width i n : Nat}
    (hcount : i < Spec.count db width) (hv : Spec.Value l value n) (ho : l ≠ 'o')
    (hn : n < 2 ^ 64) (hd : l = 'd' → n < 2 ^ 63) :
    writeValue value db l width i = some (set db (width / 8) i (BitVec.ofNat 64 n)) := by
  unfold writeValue
  dsimp only
  rw [if_neg (by unfold Spec.count at hcount; omega)]
  rcases hv with ⟨hl, h⟩ | ⟨hl, h⟩ | ⟨hl, -⟩
  · have hx := hexAtoi_number h
    rw [if_pos hn] at hx
    rw [if_neg (by rcases hl with rfl | rfl <;> decide), if_neg (by rcases hl with rfl | rfl <;> decide),
      if_pos hl, hx]
    rfl
  · rcases hl with rfl | rfl
    · rw [if_pos rfl, atoi_number _ h, if_pos (by have := hd rfl; omega)]
      rfl
    · rw [if_neg (by decide), if_pos rfl, atoi_number _ h, if_pos (by omega)]
      rfl
  · exact absurd hl ho

theorem vregSet_eq (regs : Registers) (name index format wd value : Text)
    (db : List (BitVec 8)) (l : Char) (width i : Nat) (hr : regs name = some db)
    (hf : Spec.Format format wd l width) (hi : Number 10 index i) (hsmall : i < 2 ^ 31) :
    vregSet regs .halted name index format wd value = writeValue value db l width i := by
  obtain ⟨h1, h2, h3, hw, hl⟩ := format_spec hf
  unfold vregSet
  dsimp only
  rw [h1, h2]
  dsimp only
  rw [if_neg (by decide), hr]
  dsimp only
  rw [atoi_number _ hi, if_pos (by omega)]
  dsimp only
  rw [if_pos h3]

/-- C114: `vreg set` stores the value in the element and changes nothing else, for values that fit
the format.

Missing: the format `o` and larger values, see `C114_octal_violated` and
`C114_truncated_violated`. -/
theorem C114_set_partial (regs : Registers) (name index format wd value : Text)
    (db : List (BitVec 8)) (l : Char) (width i n : Nat) (hr : regs name = some db)
    (hf : Spec.Format format wd l width) (hi : Number 10 index i)
    (hcount : i < Spec.count db width) (hsmall : i < 2 ^ 31)
    (hv : Spec.Value l value n) (ho : l ≠ 'o') (hn : n < 2 ^ width) (hd : l = 'd' → n < 2 ^ 63) :
    ∃ db', vregSet regs .halted name index format wd value = some db'
      ∧ db'.length = db.length ∧ Spec.element db' width i = n
      ∧ ∀ j, j < i * (width / 8) ∨ i * (width / 8) + width / 8 ≤ j → db'[j]? = db[j]? := by
  obtain ⟨h1, h2, h3, hw, hl⟩ := format_spec hf
  have h64 : n < 2 ^ 64 := Nat.lt_of_lt_of_le hn
    (Nat.pow_le_pow_right (by decide) (by unfold IsWidth at hw; omega))
  refine ⟨set db (width / 8) i (BitVec.ofNat 64 n), ?_, ?_⟩
  · rw [vregSet_eq regs name index format wd value db l width i hr hf hi hsmall,
      writeValue_spec hcount hv ho h64 hd]
  · have := set_spec hcount hw h64
    dsimp only at this
    rw [Nat.mod_eq_of_lt hn] at this
    exact this

/-- C114: an element the register does not have is refused, and so is everything while the core runs
and every name that is no register's. -/
theorem C114_refused (regs : Registers) (st : DebugMem.RunStatus) (name index format wd value : Text)
    (l : Char) (width i : Nat) (hf : Spec.Format format wd l width) (hi : Number 10 index i)
    (h : st ≠ .halted ∨ ∀ db, regs name = some db → Spec.count db width ≤ i) :
    vregSet regs st name index format wd value = none := by
  obtain ⟨h1, h2, h3, hw, hl⟩ := format_spec hf
  unfold vregSet
  dsimp only
  rw [h1, h2]
  dsimp only
  by_cases hst : st = .halted
  · rw [if_neg (fun x => x hst)]
    replace h := h.resolve_left (fun x => x hst)
    cases hr : regs name with
    | none => rfl
    | some db =>
      dsimp only
      rw [atoi_number _ hi]
      by_cases hs : i ≤ 2 ^ 31 - 1
      · rw [if_pos hs]
        dsimp only
        have hv : writeValue value db l width i = none := by
          unfold writeValue
          dsimp only
          rw [if_pos (show i ≥ db.length / (width / 8) from h db hr)]
        rw [if_pos h3, hv]
      · rw [if_neg hs]
  · rw [if_pos hst]

/-- With the format `o` no value is ever stored. -/
theorem C114_octal_violated (regs : Registers) (st : DebugMem.RunStatus) (name index wd value : Text) :
    vregSet regs st name index ['o'] wd value = none := by
  have h : ∀ db width i, writeValue value db 'o' width i = none := by
    intro db width i
    unfold writeValue
    dsimp only
    split
    · rfl
    · rfl
  unfold vregSet
  dsimp only [List.headD]
  split
  · rfl
  · split
    · rfl
    · split
      · rfl
      · split
        · rfl
        · split
          · exact h _ _ _
          · rfl

/-- A value of more bits than the element is cut without an error. -/
theorem C114_truncated_violated (regs : Registers) (name index format wd value : Text)
    (db : List (BitVec 8)) (l : Char) (width i n : Nat) (hr : regs name = some db)
    (hf : Spec.Format format wd l width) (hi : Number 10 index i)
    (hcount : i < Spec.count db width) (hsmall : i < 2 ^ 31)
    (hv : Spec.Value l value n) (ho : l ≠ 'o') (hbig : 2 ^ width ≤ n) (hn : n < 2 ^ 63) :
    ∃ db', vregSet regs .halted name index format wd value = some db'
      ∧ Spec.element db' width i = n % 2 ^ width ∧ Spec.element db' width i ≠ n := by
  obtain ⟨h1, h2, h3, hw, hl⟩ := format_spec hf
  have h64 : n < 2 ^ 64 := by omega
  refine ⟨set db (width / 8) i (BitVec.ofNat 64 n), ?_, ?_⟩
  · rw [vregSet_eq regs name index format wd value db l width i hr hf hi hsmall,
      writeValue_spec hcount hv ho h64 (fun _ => hn)]
  · have := set_spec hcount hw h64
    dsimp only at this
    rw [this.2.1]
    have hm : n % 2 ^ width < 2 ^ width := Nat.mod_lt _ (Nat.pow_pos (by decide))
    exact ⟨rfl, by omega⟩

/-! ## Cases that meet the hypotheses -/

/-- A register of 16 bytes. -/
def sampleRegs : Registers := fun s =>
  if s = "v1".toList then some ((List.range 16).map fun i => BitVec.ofNat 8 (i * 16 + 15)) else none

example : vregGet sampleRegs .halted "v1".toList "1".toList [] [] = .text "7f6f5f4f".toList := by
  decide +kernel
example : vregGet sampleRegs .halted "v1".toList [] "X".toList "64".toList
    = .text "7F6F5F4F3F2F1F0F:FFEFDFCFBFAF9F8F".toList := by decide +kernel
example : vregGet sampleRegs .halted "v1".toList "15".toList "d".toList "8".toList
    = .text "255".toList := by decide +kernel
example : (vregSet sampleRegs .halted "v1".toList "1".toList "x".toList "16".toList "beef".toList).map
    (fun db => (Spec.element db 16 1, Spec.element db 16 0)) = some (0xbeef, 0x1f0f) := by decide +kernel
example : Spec.Value 'x' "0x2".toList 2 :=
  Or.inl ⟨Or.inl rfl, .marked (Or.inl rfl) (by simp) (.cons (d := 2) (Or.inl rfl) (by decide) .nil)⟩
example : Spec.Format ['d'] ['8'] 'd' 8 := .given (by decide) (by decide)

end Verif.ShellVec
