import Verif.Setup.Spec
/-
What numbers, `mem get` and `mem set` mean (help text, debug_command_shell.cc:120-133, and the C
standard's integer constants).
-/
namespace Verif.ShellMem.Spec
open Verif.Setup.Spec (Numeral)

/-- A number in the given base; base 0 stands for integer constants. In base 16 the digits may come
after `0x`. -/
inductive Number : Nat → List Char → Nat → Prop
  | plain {r t n} : r = 8 ∨ r = 10 ∨ r = 16 → t ≠ [] → Numeral r t n → Number r t n
  | marked {x t n} : x = 'x' ∨ x = 'X' → t ≠ [] → Numeral 16 t n → Number 16 ('0' :: x :: t) n
  | hex {x t n} : x = 'x' ∨ x = 'X' → t ≠ [] → Numeral 16 t n → Number 0 ('0' :: x :: t) n
  | octal {t n} : Numeral 8 t n → Number 0 ('0' :: t) n
  | decimal {c t n} : c ≠ '0' → Numeral 10 (c :: t) n → Number 0 (c :: t) n

/-- A name: it starts with a letter or an underscore. -/
def IsIdentifier (s : List Char) : Prop :=
  ∃ c t, s = c :: t ∧ ((65 ≤ c.toNat ∧ c.toNat ≤ 90) ∨ (97 ≤ c.toNat ∧ c.toNat ≤ 122) ∨ c = '_')

/-- The number, or the name's value in the symbol table, that the text stands for where a number in
the base is expected. -/
inductive Denotes (symbols : Option (List Char → Option (BitVec 64))) (r : Nat) (s : List Char) :
    Nat → Prop
  | number {n} : Number r s n → n < 2 ^ 64 → Denotes symbols r s n
  | symbol {f v} : IsIdentifier s → r ≠ 16 → symbols = some f → f s = some v →
      Denotes symbols r s v.toNat

/-- The number stored at an address in `k` bytes, the least significant byte first. -/
def stored (mem : Nat → Nat) (a : Nat) : Nat → Nat
  | 0 => 0
  | k + 1 => stored mem a k + mem (a + k) * 256 ^ k

/-- FORMAT: a letter and a width; 32 bits in hexadecimal if there is none. -/
inductive Format : List Char → Char → Nat → Prop
  | default : Format [] 'x' 32
  | given {l w width} : l ∈ ['o', 'd', 'u', 'x', 'X'] →
      (w, width) ∈ [(['8'], 8), (['1', '6'], 16), (['3', '2'], 32), (['6', '4'], 64)] →
      Format (l :: w) l width

/-- The format of `mem set`: the base in which the value is written and the width. -/
inductive SetFormat : List Char → Nat → Nat → Prop
  | default : SetFormat [] 0 32
  | hex {f l width} : l = 'x' ∨ l = 'X' → Format (l :: f) l width → SetFormat (l :: f) 16 width
  | decimal {f l width} : l = 'd' ∨ l = 'u' → Format (l :: f) l width → SetFormat (l :: f) 10 width
  | octal {f width} : Format ('o' :: f) 'o' width → SetFormat ('o' :: f) 8 width

/-- `text` shows the `width`-bit number `n` in the format with the letter: hexadecimal with all
digits, `d` with a sign, the others without superfluous zeros. -/
def Shows (l : Char) (width n : Nat) (text : List Char) : Prop :=
  ((l = 'x' ∨ l = 'X') → text.length = width / 4 ∧ Numeral 16 text n)
  ∧ (l = 'u' → Numeral 10 text n ∧ (text.head? = some '0' → n = 0))
  ∧ (l = 'o' → Numeral 8 text n ∧ (text.head? = some '0' → n = 0))
  ∧ (l = 'd' → (n < 2 ^ (width - 1) → Numeral 10 text n ∧ (text.head? = some '0' → n = 0))
      ∧ (2 ^ (width - 1) ≤ n → ∃ t, text = '-' :: t ∧ Numeral 10 t (2 ^ width - n)
          ∧ t.head? ≠ some '0'))

end Verif.ShellMem.Spec
