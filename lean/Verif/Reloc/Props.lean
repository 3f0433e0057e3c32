import Verif.Reloc.Model
import Verif.Reloc.Spec
/-
C101: operands that name symbols get their relocation.
-/
namespace Verif.Reloc

/-- The class of each instruction. -/
def cls : Opcode → Spec.Class
  | .lui => .upper
  | .auipc => .pcUpper
  | .addi | .jr | .jalr | .lb | .lbu | .lh | .lhu | .lw | .lwu | .ld | .flw | .fld => .lowI
  | .sd | .sb | .sh | .sw | .fsw | .fsd => .lowS
  | .jal | .j => .jump
  | .beq | .bne | .blt | .bltu | .bge | .bgeu => .branch

/-- The pairs of instruction and function the code handles: addi and sd with `%lo` and
`%pcrel_lo`, jr and jalr with `%pcrel_lo`, lui with `%hi`, auipc with `%pcrel_hi`, jumps with
a bare symbol. -/
def Handled (op : Opcode) (f : Option String) : Prop :=
  (op = .addi ∨ op = .sd) ∧ (f = some "lo" ∨ f = some "pcrel_lo")
  ∨ (op = .jr ∨ op = .jalr) ∧ f = some "pcrel_lo"
  ∨ op = .lui ∧ f = some "hi" ∨ op = .auipc ∧ f = some "pcrel_hi"
  ∨ (op = .jal ∨ op = .j) ∧ f = none

/-- The text for a function (or none) applied to a symbol, without spaces. -/
def text (f : Option String) (sym : List Char) : Text :=
  match f with
  | some n => .func n.toList sym []
  | none => .plain sym []

theorem symbolGroup_symbol {s : List Char} (h : Spec.Symbol s) (h2 : 2 ≤ s.length) :
    symbolGroup s = some s := by
  obtain ⟨c, t, rfl, hc, _⟩ := h
  cases t with
  | nil => simp at h2
  | cons d t =>
    have : isStart c = true := by
      unfold isStart
      rcases hc with h | h <;> simp [h]
    simp [symbolGroup, this]

/-- A handled operand gets the relocation of the psABI, for the symbol named, and no other
(`_partial`: symbols of two characters or more; what is not handled is false, see below). -/
theorem C101_relocation_partial (op : Opcode) (f : Option String) (sym : List Char)
    (hs : Spec.Symbol sym) (h2 : 2 ≤ sym.length) (hh : Handled op f) :
    ∃ t, Spec.type (cls op) f = some t ∧ append op (text f sym) = some [⟨sym, t⟩] := by
  have hg := symbolGroup_symbol hs h2
  have hf : ∀ n : List Char, fullMatch (.func n sym []) = some (n, sym) := by
    intro n; simp [fullMatch, hg]
  have hp : fullMatch (.plain sym []) = some ([], sym) := by simp [fullMatch, hg]
  rcases hh with ⟨rfl | rfl, rfl | rfl⟩ | ⟨rfl | rfl, rfl⟩ | ⟨rfl, rfl⟩ | ⟨rfl, rfl⟩ |
    ⟨rfl | rfl, rfl⟩
  · exact ⟨27, rfl, by simp [append, addi, text, hf, one, Kind.number]⟩
  · exact ⟨24, rfl, by simp [append, addi, text, hf, one, Kind.number]⟩
  · exact ⟨28, rfl, by simp [append, sd, text, hf, one, Kind.number]⟩
  · exact ⟨25, rfl, by simp [append, sd, text, hf, one, Kind.number]⟩
  · exact ⟨24, rfl, by simp [append, jr, text, hf, one, Kind.number]⟩
  · exact ⟨24, rfl, by simp [append, jr, text, hf, one, Kind.number]⟩
  · exact ⟨26, rfl, by simp [append, lui, text, hf, one, Kind.number]⟩
  · exact ⟨23, rfl, by simp [append, auipc, text, hf, one, Kind.number]⟩
  · exact ⟨17, rfl, by simp [append, j, text, hp, one, Kind.number]⟩
  · exact ⟨17, rfl, by simp [append, j, text, hp, one, Kind.number]⟩

example : Spec.Symbol "main".toList := ⟨'m', "ain".toList, rfl, .inl (by decide), by decide⟩
example : append .lui (text (some "hi") "main".toList) = some [⟨"main".toList, 26⟩] := by decide

/-- addi and sd refuse functions that do not apply to them. -/
theorem C101_refused_partial (op : Opcode) (n : String) (sym : List Char)
    (hs : Spec.Symbol sym) (h2 : 2 ≤ sym.length) (ho : op = .addi ∨ op = .sd) (hn : n ≠ "")
    (ht : Spec.type (cls op) (some n) = none) :
    append op (text (some n) sym) = none := by
  have hg := symbolGroup_symbol hs h2
  have hf : fullMatch (.func n.toList sym []) = some (n.toList, sym) := by simp [fullMatch, hg]
  have h1 : n ≠ "lo" := by
    rintro rfl; rcases ho with rfl | rfl <;> cases ht
  have h2 : n ≠ "pcrel_lo" := by
    rintro rfl; rcases ho with rfl | rfl <;> cases ht
  have e1 : n.toList ≠ ['l', 'o'] := fun h => h1 (String.toList_inj.mp h)
  have e2 : n.toList ≠ "pcrel_lo".toList := fun h => h2 (String.toList_inj.mp h)
  have e3 : n.toList ≠ [] := fun h => hn (String.toList_inj.mp h)
  rcases ho with rfl | rfl
  · simp only [append, addi, text, hf, if_neg e1, if_neg e2, if_pos e3]
  · simp only [append, sd, text, hf, if_neg e1, if_neg e2, if_pos e3]

/-- A number is not taken for a symbol. -/
theorem C101_number (op : Opcode) (n : Option String) (arg : List Char) (c : Char) (t : List Char)
    (ha : arg = c :: t) (hc : c.isDigit) :
    append op (text n arg) = some [] := by
  subst ha
  have hs : isStart c = false := by
    unfold isStart
    have h1 : c.isAlpha = false := by
      simp only [Char.isAlpha, Char.isUpper, Char.isLower, Char.isDigit] at *
      simp only [ge_iff_le, UInt32.le_iff_toNat_le, Bool.and_eq_true, decide_eq_true_eq,
        Bool.or_eq_false_iff, Bool.and_eq_false_iff, decide_eq_false_iff_not] at *
      simp at *
      omega
    have h2 : c ≠ '_' := by rintro rfl; revert hc; decide
    simp [h1, h2]
  have hg : symbolGroup (c :: t) = none := by
    cases t with
    | nil => rfl
    | cons d t => simp [symbolGroup, hs]
  have hm : fullMatch (text n (c :: t)) = none := by
    cases n <;> simp [text, fullMatch, hg]
  cases op <;> simp [append, addi, j, jr, lui, sd, auipc, hm]

/-- A symbol of one letter gets no relocation, whatever the instruction. -/
theorem C101_one_letter_violated (op : Opcode) (f : Option String) (c : Char) :
    append op (text f [c]) = some [] := by
  have hm : fullMatch (text f [c]) = none := by
    cases f <;> simp [text, fullMatch, symbolGroup]
  cases op <;> simp [append, addi, j, jr, lui, sd, auipc, hm]

example : Spec.Symbol ['x'] ∧ Spec.type (cls .lui) (some "hi") = some 26 :=
  ⟨⟨'x', [], rfl, .inl (by decide), by simp⟩, rfl⟩

/-- Loads, the other stores and branches never get one. -/
theorem C101_loads_stores_branches_violated (op : Opcode) (t : Text)
    (h : op ∉ [.addi, .jal, .j, .jr, .jalr, .lui, .auipc, .sd]) :
    append op t = some [] := by
  cases op <;> first | rfl | exact absurd (by decide) h

example : Spec.type (cls .lw) (some "lo") = some 27 ∧ Spec.type (cls .sw) (some "lo") = some 28
    ∧ Spec.type (cls .beq) none = some 16 := ⟨rfl, rfl, rfl⟩

/-- Functions that do not apply are accepted: lui and the jumps take any for theirs, auipc,
jr and jalr drop them, and drop `%lo`, which applies to jr and jalr. -/
theorem C101_wrong_function_violated (sym : List Char) (hs : Spec.Symbol sym)
    (h2 : 2 ≤ sym.length) :
    append .lui (text (some "lo") sym) = some [⟨sym, 26⟩]
    ∧ append .lui (text (some "pcrel_hi") sym) = some [⟨sym, 26⟩]
    ∧ append .jal (text (some "hi") sym) = some [⟨sym, 17⟩]
    ∧ append .auipc (text (some "hi") sym) = some []
    ∧ append .jalr (text (some "lo") sym) = some []
    ∧ Spec.type (cls .jalr) (some "lo") = some 27
    ∧ Spec.type (cls .lui) (some "lo") = none ∧ Spec.type (cls .lui) (some "pcrel_hi") = none
    ∧ Spec.type (cls .jal) (some "hi") = none ∧ Spec.type (cls .auipc) (some "hi") = none := by
  have hg := symbolGroup_symbol hs h2
  have hf : ∀ n : List Char, fullMatch (.func n sym []) = some (n, sym) := by
    intro n; simp [fullMatch, hg]
  refine ⟨?_, ?_, ?_, ?_, ?_, rfl, rfl, rfl, rfl, rfl⟩ <;>
    simp [append, lui, j, auipc, jr, text, hf, one, Kind.number]

/-- A space between the symbol and the closing parenthesis becomes part of the symbol. -/
theorem C101_space_violated :
    append .lui (.func "hi".toList "main".toList [' ']) = some [⟨"main ".toList, 26⟩]
    ∧ ¬ Spec.Symbol "main ".toList := by
  refine ⟨by decide, ?_⟩
  rintro ⟨c, t, h, _, h2⟩
  have h : ['m', 'a', 'i', 'n', ' '] = c :: t := h
  injection h with _ h
  subst h
  have := h2 ' ' (by simp)
  revert this
  decide

end Verif.Reloc
