import Verif.Shell.Read
/-
Proof infrastructure for the command shell: the rows of the help text.
-/
namespace Verif.Shell
open Spec (tokens tokensFrom IsWord IsName IsNumber IsFormat IsKeyword)

theorem letter_wrd : Spec.letter = wrd := by
  funext c
  simp only [Spec.letter, wrd, dig]
  rw [show 'a'.toNat = 97 from rfl, show 'z'.toNat = 122 from rfl, show 'A'.toNat = 65 from rfl,
    show 'Z'.toNat = 90 from rfl, show '0'.toNat = 48 from rfl, show '9'.toNat = 57 from rfl]
  simp only [Bool.or_comm, Bool.or_left_comm]

theorem allOf_of {p : Char → Bool} {t : Text} (h0 : t ≠ []) (h : t.all p = true) : allOf p t = true := by
  cases t with
  | nil => exact absurd rfl h0
  | cons x t => simp only [allOf, h]; rfl

theorem word_wrd {t : Text} (h : IsWord t) : allOf wrd t = true := by
  rw [IsWord, letter_wrd] at h
  exact allOf_of h.1 h.2

theorem number_dig {t : Text} (h : IsNumber t) : allOf dig t = true := allOf_of h.1 h.2

theorem head_of_allOf {p : Char → Bool} {t : Text} (h : allOf p t = true) (x : Char) (hx : p x = false) :
    t.head? ≠ some x := by
  cases t with
  | nil => simp
  | cons y t =>
    simp only [allOf, List.all_cons, Bool.and_eq_true] at h
    simp only [List.head?_cons, ne_eq, Option.some.injEq]
    rintro rfl
    rw [hx] at h; exact absurd h.2.1 (by decide)

theorem word_dname {t : Text} (h : IsWord t) : isDname t = true := by
  rw [isDname_other t (head_of_allOf (word_wrd h) '$' (by decide))]
  exact word_wrd h

theorem name_dname {t : Text} (h : IsName t) : isDname t = true := by
  rcases h with h | ⟨u, rfl, h⟩
  · exact word_dname h
  · exact word_wrd h

theorem wdot_of_wrd {t : Text} (h : allOf wrd t = true) : allOf wdot t = true := by
  simp only [allOf, Bool.and_eq_true] at h ⊢
  refine ⟨h.1, List.all_eq_true.mpr fun x hx => ?_⟩
  simp only [wdot, List.all_eq_true.mp h.2 x hx]; rfl

theorem name_dotted {t : Text} (h : IsName t) : isDotted t = true := by
  rcases h with h | ⟨u, rfl, h⟩
  · have h1 := wdot_of_wrd (word_wrd h)
    have h2 := head_of_allOf h1 '$' (by decide)
    unfold isDotted
    split
    · exact absurd rfl h2
    · exact h1
  · exact wdot_of_wrd (word_wrd h)

theorem digits_of_width {w : Text} (h : w ∈ ["8".toList, "16".toList, "32".toList, "64".toList]) :
    allOf dig w = true ∧ isWidth w = true := by
  simp only [List.mem_cons, List.not_mem_nil, or_false] at h
  rcases h with rfl | rfl | rfl | rfl <;> decide

theorem format_fmt {t : Text} (h : IsFormat t) : isFmt "foduxX" t = true ∧ isFmt "oduxX" t = true ∧
    isFw t = true := by
  obtain ⟨l, w, hl, hw, rfl⟩ := h
  obtain ⟨h1, h2⟩ := digits_of_width hw
  have h3 : oneOf "oduxX" l = true := by simp only [oneOf, List.contains_iff_mem]; exact hl
  have h4 : oneOf "foduxX" l = true := by
    simp only [oneOf, List.contains_iff_mem]; exact List.mem_cons_of_mem _ hl
  simp only [isFmt, isFw, h1, h2, h3, h4]
  decide

theorem hash_word (n : Text) : allOf wrd ('#' :: n) = false := by
  simp only [allOf, List.all_cons, show wrd '#' = false by decide]
  simp

theorem hash_dname (n : Text) : isDname ('#' :: n) = false := hash_word n

theorem hash_dotted (n : Text) : isDotted ('#' :: n) = false := by
  show allOf wdot ('#' :: n) = false
  simp only [allOf, List.all_cons, show wdot '#' = false by decide]
  simp

theorem word_marked {a : Text} (h : IsWord a) (m : Char) (hm : wrd m = false) : isMarked m a = false := by
  have := head_of_allOf (word_wrd h) m hm
  cases a with
  | nil => rfl
  | cons x a =>
    simp only [List.head?_cons, ne_eq, Option.some.injEq] at this
    simp [isMarked, this]

theorem hash_marked {n : Text} (h : IsNumber n) : isMarked '#' ('#' :: n) = true := by
  simp only [isMarked, number_dig h]; decide

theorem hash_ne (n : Text) (x : Char) (u : Text) (h : x ≠ '#') : ('#' :: n) ≠ x :: u := by
  intro h'
  exact h (List.cons.inj h').1.symm

theorem word_ne {a : Text} (h : IsWord a) (t : Text) (ht : allOf wrd t = false) : a ≠ t := by
  rintro rfl
  rw [word_wrd h] at ht; cases ht

theorem kw_ne {a : Text} (h : ¬ IsKeyword a) : a ≠ "get".toList ∧ a ≠ "set".toList ∧ a ≠ "clear".toList :=
  ⟨fun e => h (.inl e), fun e => h (.inr (.inl e)), fun e => h (.inr (.inr e))⟩

theorem cap_dotted (n : Text) (c : Caps) : cap (dottedCaps n ++ c) 0 = n := rfl

/-! ## The four rules, by the first word -/

theorem vgRule_none {s : Text} {t : Text} {ts : List Text} (h : tokens s = t :: ts) (ht : t ≠ "vreg".toList) :
    vgRule s = none := by
  unfold vgRule
  rw [full_none]; · rfl
  intro c hc
  obtain ⟨us, hu⟩ := rdVreg_head s c hc
  rw [h] at hu
  exact ht (List.cons.inj hu).1

theorem vsRule_none {s : Text} {t : Text} {ts : List Text} (h : tokens s = t :: ts) (ht : t ≠ "vreg".toList) :
    vsRule s = none := by
  unfold vsRule
  rw [full_none]; · rfl
  intro c hc
  obtain ⟨A, B, n, cb, rfl, _, hA, _⟩ := lang_wrVreg s c hc
  obtain ⟨w0, r, rfl, hw0, hs, he, hr⟩ := tokens_cons_inv hA
  have he' : Edge (r ++ ':' :: B) := by
    rcases he with rfl | ⟨x, q, rfl, hx⟩
    · exact absurd hr (by simp [tokens, tokensFrom])
    · exact .inr ⟨x, q ++ ':' :: B, rfl, hx⟩
  rw [List.append_assoc, List.append_assoc, ← List.append_assoc, tokens_cons w0 _ _ hw0 hs he'] at h
  exact ht (List.cons.inj h).1.symm

theorem msRule_none {s : Text} {t : Text} {ts : List Text} (h : tokens s = t :: ts) (ht : t ≠ "mem".toList) :
    msRule s = none := by
  unfold msRule
  rw [full_none]; · rfl
  intro c hc
  obtain ⟨a, _, ⟨f, v, h1, _⟩ | ⟨v, h1, _⟩⟩ := lang_memSet s c hc <;> rw [h] at h1 <;>
    exact ht (List.cons.inj h1).1

theorem msRule_none2 {s : Text} {t u : Text} {ts : List Text} (h : tokens s = t :: u :: ts)
    (hu : u ≠ "set".toList) : msRule s = none := by
  unfold msRule
  rw [full_none]; · rfl
  intro c hc
  obtain ⟨a, _, ⟨f, v, h1, _⟩ | ⟨v, h1, _⟩⟩ := lang_memSet s c hc <;> rw [h] at h1 <;>
    exact hu (List.cons.inj (List.cons.inj h1).2).1

theorem exRule_none {s : Text} {t : Text} {ts : List Text} (h : tokens s = t :: ts) (ht : t ≠ "exec".toList) :
    exRule s = none := by
  unfold exRule
  rw [full_none]; · rfl
  intro c hc
  obtain ⟨us, hu⟩ := lang_exec s c hc
  rw [h] at hu
  exact ht (List.cons.inj hu).1

theorem wordRules (t : Text) (ts : List Text) (h : t ∉ ["quit".toList, "core".toList, "run".toList,
    "c".toList, "wait".toList, "step".toList, "halt".toList, "reg".toList, "mem".toList, "break".toList, "help".toList,
    "watch".toList, "action".toList, "branch-trace".toList]) (vg vs ms ex : Option Cmd) :
    firstOf (byWords (t :: ts) vg vs ms ex) = firstOf [vg, vs, ms, ex] := by
  simp only [List.mem_cons, List.not_mem_nil, or_false, not_or] at h
  obtain ⟨h1, h2, h3, h4, h5, h6, h7, h8, h9, h10, h11, h12, h13, h14⟩ := h
  simp only [byWords, tm, tmTail, full_k, full_run, h1, h2, h3, h4, h5, h6, h7, h8, h9, h10, h11, h12,
    h13, h14, if_false, decide_false, Bool.or_self, Bool.false_eq_true, Option.bind_none, Option.map_none,
    Option.orElse_none, firstOf]
  cases vg <;> cases vs <;> cases ms <;> cases ex <;> rfl

end Verif.Shell
