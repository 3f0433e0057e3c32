import Verif.ShellMem.Model
import Verif.ShellMem.Spec
import Verif.Setup.Props
/-
C110: the numbers and symbols of the command shell.
-/
namespace Verif.ShellMem
open Verif.Shell (Text)
open Verif.Setup (takeDigits skipHexMark takeSign isSpace digit)
open Verif.Setup.Spec (Numeral IsDigit)

/-- Neither a blank nor a sign. -/
def Plain (c : Char) : Prop := isSpace c = false ∧ c ≠ '-' ∧ c ≠ '+'

theorem takeSign_plain {c : Char} {t : Text} (h : Plain c) :
    takeSign ((c :: t).dropWhile isSpace) = (false, c :: t) := by
  obtain ⟨h1, h2, h3⟩ := h
  rw [List.dropWhile_cons_of_neg (by simp [h1])]
  unfold takeSign
  split
  · rename_i e; injection e with e _; exact absurd e h2
  · rename_i e; injection e with e _; exact absurd e h3
  · rfl

theorem plain_digit {c : Char} {d b : Nat} (h : IsDigit c d) (hb : d < b) (h16 : b ≤ 16) : Plain c :=
  let x := Setup.digit_not_special (Setup.digit_of_isDigit h hb) h16
  ⟨x.1, x.2.1, x.2.2.1⟩

theorem zero_digit {d : Nat} (h : IsDigit '0' d) : d = 0 := by
  have h1 := Setup.digit_of_isDigit h (Nat.lt_succ_self d)
  unfold digit at h1
  simp at h1
  exact h1.symm

theorem isDigit_zero : IsDigit '0' 0 := Or.inl rfl

/-- The digits resolved are those of a number: `m` is the mark skipped. -/
theorem resolve_spec (r : Nat) (hr : r = 0 ∨ r = 8 ∨ r = 10 ∨ r = 16) (s : Text) :
    ∃ m b u, resolve r s = (b, u) ∧ b ≤ 16 ∧ s = m ++ u ∧
      ∀ p t n, u = p ++ t → p ≠ [] → Numeral b p n → Spec.Number r (m ++ p) n := by
  have hmark : ∀ s : Text, skipHexMark s = s ∨
      ∃ x c t, s = '0' :: x :: c :: t ∧ (x = 'x' ∨ x = 'X') ∧ skipHexMark s = c :: t := by
    intro s
    unfold skipHexMark
    split
    · rename_i x c t
      split
      · rename_i h; exact Or.inr ⟨x, c, t, rfl, h.1, rfl⟩
      · exact Or.inl rfl
    · exact Or.inl rfl
  rcases hr with rfl | rfl | rfl | rfl
  · unfold resolve
    rw [if_pos rfl]
    rcases hmark s with h | ⟨x, c, t, e, hx, h⟩
    · rw [h, if_neg (Nat.lt_irrefl _)]
      by_cases h0 : s.head? = some '0'
      · rw [if_pos h0]
        refine ⟨[], 8, s, rfl, by decide, rfl, ?_⟩
        intro p t n e hp hn
        cases hn with
        | nil => exact absurd rfl hp
        | @cons c d p n hd hb hn =>
          rw [e] at h0
          injection h0 with h0
          subst h0
          rw [zero_digit hd, Nat.zero_mul, Nat.zero_add]
          exact .octal hn
      · rw [if_neg h0]
        refine ⟨[], 10, s, rfl, by decide, rfl, ?_⟩
        intro p t n e hp hn
        cases p with
        | nil => exact absurd rfl hp
        | cons c p =>
          refine .decimal (fun hc => h0 ?_) hn
          rw [e, hc]; rfl
    · rw [h, e, if_pos (by simp only [List.length_cons]; omega)]
      exact ⟨['0', x], 16, c :: t, rfl, by decide, rfl, fun p t n _ hp hn => .hex hx hp hn⟩
  · exact ⟨[], 8, s, rfl, by decide, rfl, fun p t n _ hp hn => .plain (by simp) hp hn⟩
  · exact ⟨[], 10, s, rfl, by decide, rfl, fun p t n _ hp hn => .plain (by simp) hp hn⟩
  · rcases hmark s with h | ⟨x, c, t, e, hx, h⟩
    · exact ⟨[], 16, s, by simp [resolve, h], by decide, rfl,
        fun p t n _ hp hn => .plain (by simp) hp hn⟩
    · exact ⟨['0', x], 16, c :: t, by simp [resolve, h], by decide, by rw [e]; rfl,
        fun p t n _ hp hn => .marked hx hp hn⟩

theorem skip_marked {x : Char} {t : Text} {n : Nat} (hx : x = 'x' ∨ x = 'X') (ht : t ≠ [])
    (h : Numeral 16 t n) : skipHexMark ('0' :: x :: t) = t := by
  cases h with
  | nil => exact absurd rfl ht
  | @cons c d t n hd hb _ =>
    have hc : (digit 16 c).isSome = true := by rw [Setup.digit_of_isDigit hd hb]; rfl
    simp only [skipHexMark, hx, hc, and_self, if_true]

theorem skip_other {c : Char} {t : Text} (hc : c ≠ '0') : skipHexMark (c :: t) = c :: t := by
  unfold skipHexMark
  split
  · rename_i e; injection e with e _; exact absurd e hc
  · rfl

/-- A number's digits are all resolved. -/
theorem resolve_number {r : Nat} {s : Text} {n : Nat} (h : Spec.Number r s n) :
    ∃ c t b u, s = c :: t ∧ Plain c ∧ resolve r s = (b, u) ∧ u ≠ [] ∧ Numeral b u n
      ∧ u.length ≤ s.length := by
  cases h with
  | plain hr hs hn =>
    have h16 : r ≤ 16 := by omega
    cases hn with
    | nil => exact absurd rfl hs
    | @cons c d t n hd hb hn =>
      refine ⟨c, t, r, c :: t, rfl, plain_digit hd hb h16, ?_, by simp, .cons hd hb hn, Nat.le_refl _⟩
      rcases hr with rfl | rfl | rfl
      · rfl
      · rfl
      · simp [resolve, Setup.skipHexMark_numeral (.cons hd hb hn)]
  | @marked x t n hx ht hn =>
    refine ⟨'0', x :: t, 16, t, rfl, by unfold Plain; decide, ?_, ht, hn, by simp only [List.length_cons]; omega⟩
    simp [resolve, skip_marked hx ht hn]
  | @hex x t n hx ht hn =>
    refine ⟨'0', x :: t, 16, t, rfl, by unfold Plain; decide, ?_, ht, hn, by simp only [List.length_cons]; omega⟩
    unfold resolve
    rw [if_pos rfl, skip_marked hx ht hn, if_pos (by simp only [List.length_cons]; omega)]
  | @octal t n hn =>
    have h8 : Numeral 8 ('0' :: t) n := by
      have := Numeral.cons isDigit_zero (show 0 < 8 by decide) hn
      rwa [Nat.zero_mul, Nat.zero_add] at this
    refine ⟨'0', t, 8, '0' :: t, rfl, by unfold Plain; decide, ?_, by simp, h8, Nat.le_refl _⟩
    have hs : skipHexMark ('0' :: t) = '0' :: t := by
      unfold skipHexMark
      split
      · rename_i x c t' e
        injection e with _ e
        rw [if_neg, e]
        rintro ⟨hx, _⟩
        rw [e] at hn
        cases hn with
        | cons hd hb _ =>
          have := Setup.digit_not_special (Setup.digit_of_isDigit hd hb) (by decide)
          rcases hx with h | h
          · exact this.2.2.2.1 h
          · exact this.2.2.2.2 h
      · rfl
    unfold resolve
    rw [if_pos rfl, hs, if_neg (Nat.lt_irrefl _), if_pos (List.head?_cons ..)]
  | @decimal c t n hc hn =>
    refine ⟨c, t, 10, c :: t, rfl, ?_, ?_, by simp, hn, Nat.le_refl _⟩
    · cases hn with
      | cons hd hb _ => exact plain_digit hd hb (by decide)
    · unfold resolve
      rw [if_pos rfl, skip_other hc, if_neg (Nat.lt_irrefl _), if_neg]
      intro h; injection h with h; exact hc h

/-- `strtoull` of a text whose digits are resolved. -/
theorem strtoull_plain {c : Char} {t : Text} {r b : Nat} {u p v : Text} {n : Nat} (hc : Plain c)
    (hr : resolve r (c :: t) = (b, u)) (hu : u = p ++ v) (hp : Numeral b p n)
    (hd : takeDigits b u = takeDigits b p) :
    strtoull r (c :: t) = if p = [] then .invalid
      else if n < 2 ^ 64 then .ok (BitVec.ofNat 64 n) ((c :: t).length - v.length)
      else .outOfRange := by
  unfold strtoull
  rw [takeSign_plain hc]
  dsimp only
  rw [hr]
  dsimp only
  have hl := Setup.takeDigits_length hp
  have hv := Setup.takeDigits_numeral hp 0
  rw [hd, hv, Nat.zero_mul, Nat.zero_add, hl, hu, List.length_append]
  by_cases h : p = []
  · subst h
    rw [if_pos (by rw [takeDigits]; rfl), if_pos rfl]
  · rw [if_neg h, if_neg]
    · rw [show p.length + v.length - p.length = v.length by omega]
      split <;> rfl
    · intro he
      rw [List.isEmpty_iff] at he
      rw [he] at hl
      exact h (List.length_eq_zero_iff.mp hl.symm)

/-- C110: a number is taken for its value, whatever symbols there are; if it has more than 64 bits it
is refused. -/
theorem C110_number (syms : Symbols) (r : Nat) (s : Text) (n : Nat) (h : Spec.Number r s n) :
    getValue syms s r = if n < 2 ^ 64 then .value (BitVec.ofNat 64 n) else .outOfRange := by
  obtain ⟨c, t, b, u, rfl, hc, hr, hu, hn, -⟩ := resolve_number h
  have := strtoull_plain (v := []) hc hr (List.append_nil u).symm hn rfl
  unfold getValue
  rw [this, if_neg hu]
  by_cases hlt : n < 2 ^ 64
  · rw [if_pos hlt, if_pos hlt]
    dsimp only
    rw [if_pos (by simp)]
  · rw [if_neg hlt, if_neg hlt]

example : getValue none "0x1f".toList 0 = .value 31#64
    ∧ getValue none "017".toList 0 = .value 15#64
    ∧ getValue none "17".toList 0 = .value 17#64
    ∧ getValue none "ff".toList 16 = .value 255#64
    ∧ getValue none "18446744073709551616".toList 10 = .outOfRange := by decide +kernel

example : Spec.Number 0 "0x1f".toList 31 :=
  .hex (Or.inl rfl) (by simp) (.cons (d := 1) (Or.inl rfl) (by decide)
    (.cons (d := 15) (Or.inl rfl) (by decide) .nil))

/-- A text that starts neither with a blank nor with a sign, is no number and does not start with a
number of more than 64 bits is looked up in the symbol table. -/
theorem C110_symbol (syms : Symbols) (r : Nat) (hr : r = 0 ∨ r = 8 ∨ r = 10 ∨ r = 16) (c : Char)
    (t : Text) (hc : c ≠ '-' ∧ c ≠ '+' ∧ c ≠ ' ' ∧ ¬ (9 ≤ c.toNat ∧ c.toNat ≤ 13))
    (hs : ∀ n, ¬ Spec.Number r (c :: t) n)
    (hl : ∀ p q n, c :: t = p ++ q → Spec.Number r p n → n < 2 ^ 64) :
    getValue syms (c :: t) r = lookup syms (c :: t) := by
  have hp : Plain c := by
    refine ⟨?_, hc.1, hc.2.1⟩
    unfold isSpace
    simp only [hc.2.2.1, decide_false, Bool.false_or]
    rw [Bool.eq_false_iff]
    intro h
    rw [Bool.and_eq_true, decide_eq_true_eq, decide_eq_true_eq] at h
    exact hc.2.2.2 h
  obtain ⟨m, b, u, hres, hb, hsu, hN⟩ := resolve_spec r hr (c :: t)
  obtain ⟨p, v, n, hpv, hn, -, hd⟩ := Setup.takeDigits_spec hb u
  have h := strtoull_plain hp hres hpv hn hd
  unfold getValue
  rw [h]
  by_cases h0 : p = []
  · rw [if_pos h0]
  · have hnum := hN p v n hpv h0 hn
    rw [if_neg h0, if_pos (hl (m ++ p) v n (by rw [hsu, hpv, List.append_assoc]) hnum)]
    dsimp only
    rw [if_neg]
    · intro hge
      have : v = [] := by
        cases v with
        | nil => rfl
        | cons x v =>
          simp only [List.length_cons] at hge
          omega
      subst this
      rw [List.append_nil] at hpv
      subst hpv
      rw [hsu] at hs
      exact hs n hnum

/-- Names are no numbers, and do not start with one, unless letters are digits. -/
theorem identifier_number {r : Nat} {s p q : Text} {n : Nat} (hr : r ≠ 16) (hs : Spec.IsIdentifier s)
    (e : s = p ++ q) (h : Spec.Number r p n) : False := by
  obtain ⟨c, t, rfl, hc⟩ := hs
  have hlow : ∀ {b : Nat} {p : Text} {m : Nat}, b ≤ 10 → p ≠ [] → c :: t = p ++ q → Numeral b p m → False := by
    intro b p m hb hp e hn
    cases hn with
    | nil => exact hp rfl
    | @cons c' d t' n' hd hlt hn =>
      injection e with e _
      subst e
      obtain ⟨_, hcase⟩ := Setup.digit_cases (Setup.digit_of_isDigit hd hlt) (by omega)
      have : c = '_' → c.toNat = 95 := by rintro rfl; rfl
      rcases hc with h | h | h
      · omega
      · omega
      · have := this h; omega
  have hz : c ≠ '0' := by
    rintro rfl
    rcases hc with h | h | h
    · exact absurd h (by decide)
    · exact absurd h (by decide)
    · exact absurd h (by decide)
  cases h with
  | plain h8 hp hn =>
    exact hlow (by omega) hp e hn
  | marked => exact hr rfl
  | hex => injection e with e _; exact hz e
  | octal => injection e with e _; exact hz e
  | decimal hne hn => exact hlow (Nat.le_refl _) (by simp) e hn

/-- C110: a name is looked up in the symbol table, in every base in which letters are no digits. -/
theorem C110_identifier (syms : Symbols) (r : Nat) (hr : r = 0 ∨ r = 8 ∨ r = 10) (s : Text)
    (hs : Spec.IsIdentifier s) : getValue syms s r = lookup syms s := by
  have h16 : r ≠ 16 := by omega
  have hid := hs
  obtain ⟨c, t, rfl, hc⟩ := hs
  refine C110_symbol syms r (by omega) c t ?_ (fun n h => identifier_number h16 hid (List.append_nil _).symm h)
    (fun p q n e h => (identifier_number h16 hid e h).elim)
  refine ⟨?_, ?_, ?_, ?_⟩
  · rintro rfl; revert hc; decide
  · rintro rfl; revert hc; decide
  · rintro rfl; revert hc; decide
  · rcases hc with h | h | rfl
    · omega
    · omega
    · decide

example : getValue (some fun s => if s = "main".toList then some 0x1000#64 else none) "main".toList 0
    = .value 0x1000#64 := by decide +kernel

/-- C110: what a text denotes is its value. -/
theorem C110_denotes (syms : Symbols) (r : Nat) (hr : r = 0 ∨ r = 8 ∨ r = 10 ∨ r = 16) (s : Text)
    (n : Nat) (h : Spec.Denotes syms r s n) :
    getValue syms s r = .value (BitVec.ofNat 64 n) ∧ n < 2 ^ 64 := by
  cases h with
  | number h hn => exact ⟨by rw [C110_number syms r s n h, if_pos hn], hn⟩
  | @symbol f v hid h16 hf hv =>
    refine ⟨?_, v.isLt⟩
    rw [C110_identifier syms r (by omega) s hid, hf]
    unfold lookup
    dsimp only
    rw [hv, BitVec.ofNat_toNat, BitVec.setWidth_eq]

end Verif.ShellMem
