import Verif.Shell.Spec
/-
Proof infrastructure for the command shell: what a regular expression matches, and what that means
for the words of a line.
-/
namespace Verif.Shell
open Spec (tokens tokensFrom)

/-- The texts an expression matches, with the groups. -/
def Lang : Re → Text → Caps → Prop
  | .lit t, w, c => w = t ∧ c = []
  | .one p, w, c => (∃ x, w = [x] ∧ p x = true) ∧ c = []
  | .star p, w, c => w.all p = true ∧ c = []
  | .plus p, w, c => w ≠ [] ∧ w.all p = true ∧ c = []
  | .plusLast p, w, c => w ≠ [] ∧ w.all p = true ∧ c = [w.getLast?.map fun x => [x]]
  | .seq a b, w, c => ∃ w1 w2 c1 c2, w = w1 ++ w2 ∧ c = c1 ++ c2 ∧ Lang a w1 c1 ∧ Lang b w2 c2
  | .alt a b, w, c => (∃ c1, c = c1 ++ b.nones ∧ Lang a w c1) ∨ (∃ c2, c = a.nones ++ c2 ∧ Lang b w c2)
  | .opt a, w, c => Lang a w c ∨ (w = [] ∧ c = a.nones)
  | .grp a, w, c => ∃ c1, c = some w :: c1 ∧ Lang a w c1

theorem mem_splits (p : Char → Bool) : ∀ (s w r : Text),
    (w, r) ∈ splits p s ↔ s = w ++ r ∧ w.all p = true := by
  intro s
  induction s with
  | nil =>
    intro w r
    simp only [splits, List.mem_singleton, Prod.mk.injEq]
    constructor
    · rintro ⟨rfl, rfl⟩; exact ⟨rfl, rfl⟩
    · rintro ⟨h, _⟩
      have := (List.append_eq_nil_iff.mp h.symm); exact this
  | cons x s ih =>
    intro w r
    simp only [splits]
    split
    · rename_i hp
      simp only [List.mem_append, List.mem_map, List.mem_singleton, Prod.mk.injEq, Prod.exists]
      constructor
      · rintro (⟨a, b, hab, rfl, rfl⟩ | ⟨rfl, rfl⟩)
        · obtain ⟨h1, h2⟩ := (ih a b).mp hab
          subst h1
          exact ⟨rfl, by simp [hp, h2]⟩
        · exact ⟨rfl, rfl⟩
      · rintro ⟨h1, h2⟩
        cases w with
        | nil => exact .inr ⟨rfl, h1.symm⟩
        | cons y w =>
          simp only [List.cons_append, List.cons.injEq] at h1
          obtain ⟨rfl, rfl⟩ := h1
          simp only [List.all_cons, Bool.and_eq_true] at h2
          exact .inl ⟨w, r, (ih w r).mpr ⟨rfl, h2.2⟩, rfl, rfl⟩
    · rename_i hp
      simp only [List.mem_singleton, Prod.mk.injEq]
      constructor
      · rintro ⟨rfl, rfl⟩; exact ⟨rfl, rfl⟩
      · rintro ⟨h1, h2⟩
        cases w with
        | nil => exact ⟨rfl, h1.symm⟩
        | cons y w =>
          simp only [List.cons_append, List.cons.injEq] at h1
          obtain ⟨rfl, rfl⟩ := h1
          simp only [List.all_cons, Bool.and_eq_true] at h2
          exact absurd h2.1 hp

theorem mem_ways : ∀ (r : Re) (s : Text) (c : Caps) (w rest : Text),
    (c, w, rest) ∈ r.ways s ↔ s = w ++ rest ∧ Lang r w c := by
  intro r
  induction r with
  | lit t =>
    intro s c w rest
    simp only [Re.ways, Lang]
    split
    · rename_i h
      simp only [List.mem_singleton, Prod.mk.injEq]
      obtain ⟨u, rfl⟩ := List.isPrefixOf_iff_prefix.mp h
      rw [List.drop_left]
      constructor
      · rintro ⟨rfl, rfl, rfl⟩; exact ⟨rfl, rfl, rfl⟩
      · rintro ⟨h1, rfl, rfl⟩
        exact ⟨rfl, rfl, (List.append_cancel_left h1).symm⟩
    · rename_i h
      constructor
      · intro h'; exact absurd h' List.not_mem_nil
      · rintro ⟨rfl, rfl, rfl⟩
        exact absurd (List.isPrefixOf_iff_prefix.mpr ⟨rest, rfl⟩) h
  | one p =>
    intro s c w rest
    cases s with
    | nil =>
      simp only [Re.ways, Lang]
      constructor
      · intro h'; exact absurd h' List.not_mem_nil
      · rintro ⟨h, ⟨x, rfl, _⟩, _⟩; cases h
    | cons y s =>
      simp only [Re.ways, Lang]
      split
      · rename_i hp
        simp only [List.mem_singleton, Prod.mk.injEq]
        constructor
        · rintro ⟨rfl, rfl, rfl⟩; exact ⟨rfl, ⟨y, rfl, hp⟩, rfl⟩
        · rintro ⟨h, ⟨x, rfl, _⟩, rfl⟩
          simp only [List.cons_append, List.nil_append, List.cons.injEq] at h
          obtain ⟨rfl, rfl⟩ := h
          exact ⟨rfl, rfl, rfl⟩
      · rename_i hp
        constructor
        · intro h'; exact absurd h' List.not_mem_nil
        · rintro ⟨h, ⟨x, rfl, hx⟩, _⟩
          simp only [List.cons_append, List.nil_append, List.cons.injEq] at h
          exact absurd (h.1 ▸ hx) hp
  | star p =>
    intro s c w rest
    simp only [Re.ways, Lang, List.mem_map, Prod.mk.injEq, Prod.exists]
    constructor
    · rintro ⟨a, b, hab, rfl, rfl, rfl⟩
      obtain ⟨h1, h2⟩ := (mem_splits p s a b).mp hab
      exact ⟨h1, h2, rfl⟩
    · rintro ⟨h1, h2, rfl⟩
      exact ⟨w, rest, (mem_splits p s w rest).mpr ⟨h1, h2⟩, rfl, rfl, rfl⟩
  | plus p =>
    intro s c w rest
    simp only [Re.ways, Lang, List.mem_map, List.mem_filter, Prod.mk.injEq, Prod.exists,
      Bool.not_eq_true', List.isEmpty_eq_false_iff]
    constructor
    · rintro ⟨a, b, ⟨hab, hne⟩, rfl, rfl, rfl⟩
      obtain ⟨h1, h2⟩ := (mem_splits p s a b).mp hab
      exact ⟨h1, hne, h2, rfl⟩
    · rintro ⟨h1, hne, h2, rfl⟩
      exact ⟨w, rest, ⟨(mem_splits p s w rest).mpr ⟨h1, h2⟩, hne⟩, rfl, rfl, rfl⟩
  | plusLast p =>
    intro s c w rest
    simp only [Re.ways, Lang, List.mem_map, List.mem_filter, Prod.mk.injEq, Prod.exists,
      Bool.not_eq_true', List.isEmpty_eq_false_iff]
    constructor
    · rintro ⟨a, b, ⟨hab, hne⟩, rfl, rfl, rfl⟩
      obtain ⟨h1, h2⟩ := (mem_splits p s a b).mp hab
      exact ⟨h1, hne, h2, rfl⟩
    · rintro ⟨h1, hne, h2, rfl⟩
      exact ⟨w, rest, ⟨(mem_splits p s w rest).mpr ⟨h1, h2⟩, hne⟩, rfl, rfl, rfl⟩
  | seq a b iha ihb =>
    intro s c w rest
    simp only [Re.ways, Lang, List.mem_flatMap, List.mem_map, Prod.mk.injEq, Prod.exists]
    constructor
    · rintro ⟨ca, wa, ra, ha, cb, wb, rb, hb, rfl, rfl, rfl⟩
      obtain ⟨h1, h2⟩ := (iha s ca wa ra).mp ha
      obtain ⟨h3, h4⟩ := (ihb ra cb wb rb).mp hb
      subst h1; subst h3
      exact ⟨by rw [List.append_assoc], wa, wb, ca, cb, rfl, rfl, h2, h4⟩
    · rintro ⟨h, w1, w2, c1, c2, rfl, rfl, h1, h2⟩
      exact ⟨c1, w1, w2 ++ rest, (iha _ _ _ _).mpr ⟨by rw [h, List.append_assoc], h1⟩,
        c2, w2, rest, (ihb _ _ _ _).mpr ⟨rfl, h2⟩, rfl, rfl, rfl⟩
  | alt a b iha ihb =>
    intro s c w rest
    simp only [Re.ways, Lang, List.mem_append, List.mem_map, Prod.mk.injEq, Prod.exists]
    constructor
    · rintro (⟨ca, wa, ra, ha, rfl, rfl, rfl⟩ | ⟨ca, wa, ra, ha, rfl, rfl, rfl⟩)
      · obtain ⟨h1, h2⟩ := (iha _ _ _ _).mp ha
        exact ⟨h1, .inl ⟨ca, rfl, h2⟩⟩
      · obtain ⟨h1, h2⟩ := (ihb _ _ _ _).mp ha
        exact ⟨h1, .inr ⟨ca, rfl, h2⟩⟩
    · rintro ⟨h1, ⟨c1, rfl, h2⟩ | ⟨c2, rfl, h2⟩⟩
      · exact .inl ⟨c1, w, rest, (iha _ _ _ _).mpr ⟨h1, h2⟩, rfl, rfl, rfl⟩
      · exact .inr ⟨c2, w, rest, (ihb _ _ _ _).mpr ⟨h1, h2⟩, rfl, rfl, rfl⟩
  | opt a ih =>
    intro s c w rest
    simp only [Re.ways, Lang, List.mem_append, List.mem_singleton, Prod.mk.injEq]
    constructor
    · rintro (h | ⟨rfl, rfl, rfl⟩)
      · obtain ⟨h1, h2⟩ := (ih _ _ _ _).mp h
        exact ⟨h1, .inl h2⟩
      · exact ⟨rfl, .inr ⟨rfl, rfl⟩⟩
    · rintro ⟨h1, h2 | ⟨rfl, rfl⟩⟩
      · exact .inl ((ih _ _ _ _).mpr ⟨h1, h2⟩)
      · exact .inr ⟨rfl, rfl, h1.symm⟩
  | grp a ih =>
    intro s c w rest
    simp only [Re.ways, Lang, List.mem_map, Prod.mk.injEq, Prod.exists]
    constructor
    · rintro ⟨ca, wa, ra, ha, rfl, rfl, rfl⟩
      obtain ⟨h1, h2⟩ := (ih _ _ _ _).mp ha
      exact ⟨h1, ca, rfl, h2⟩
    · rintro ⟨h1, c1, rfl, h2⟩
      exact ⟨c1, w, rest, (ih _ _ _ _).mpr ⟨h1, h2⟩, rfl, rfl, rfl⟩

theorem full_some {r : Re} {s : Text} {c : Caps} (h : full r s = some c) : Lang r s c := by
  unfold full at h
  cases e : (r.ways s).find? (fun x => x.2.2.isEmpty) with
  | none => rw [e] at h; cases h
  | some x =>
    rw [e] at h
    have hm := List.mem_of_find?_eq_some e
    have hp := List.find?_some e
    obtain ⟨cx, w, rest⟩ := x
    have hr : rest = [] := List.isEmpty_iff.mp hp
    subst hr
    obtain ⟨h1, h2⟩ := (mem_ways r s cx w []).mp hm
    rw [List.append_nil] at h1
    subst h1
    have : cx = c := by simpa using h
    exact this ▸ h2

theorem full_none {r : Re} {s : Text} (h : ∀ c, ¬ Lang r s c) : full r s = none := by
  cases e : full r s with
  | none => rfl
  | some c => exact absurd (full_some e) (h c)

theorem full_of {r : Re} {s : Text} {c : Caps} (h : Lang r s c) : ∃ c', full r s = some c' ∧ Lang r s c' := by
  cases e : full r s with
  | some c' => exact ⟨c', rfl, full_some e⟩
  | none =>
    exfalso
    unfold full at e
    rw [Option.map_eq_none_iff, List.find?_eq_none] at e
    exact e (c, s, []) ((mem_ways r s c s []).mpr ⟨(List.append_nil s).symm, h⟩) rfl

/-- A match whose groups are determined is the one found. -/
theorem full_eq {r : Re} {s : Text} {c : Caps} (h : Lang r s c) (u : ∀ c', Lang r s c' → c' = c) :
    full r s = some c := by
  obtain ⟨c', h1, h2⟩ := full_of h
  rw [h1, u c' h2]

/-! ## Words of a line -/

theorem sp_eq : Spec.blank = sp := rfl

def Blank (w : Text) : Prop := w.all sp = true

/-- A word: not empty, no blanks. -/
def Solid (t : Text) : Prop := t ≠ [] ∧ t.all (fun c => !sp c) = true

/-- At the end of a word. -/
def Edge (s : Text) : Prop := s = [] ∨ ∃ x r, s = x :: r ∧ sp x = true

theorem tf_blank (w s : Text) (h : Blank w) : tokensFrom [] (w ++ s) = tokensFrom [] s := by
  induction w with
  | nil => rfl
  | cons x w ih =>
    simp only [Blank, List.all_cons, Bool.and_eq_true] at h
    rw [List.cons_append, tokensFrom, sp_eq, if_pos h.1, if_pos rfl]
    exact ih h.2

theorem tf_word (t s : Text) (h : t.all (fun c => !sp c) = true) : ∀ cur,
    tokensFrom cur (t ++ s) = tokensFrom (cur ++ t) s := by
  induction t with
  | nil => intro cur; rw [List.append_nil]; rfl
  | cons x t ih =>
    intro cur
    simp only [List.all_cons, Bool.and_eq_true, Bool.not_eq_true'] at h
    rw [List.cons_append, tokensFrom, sp_eq, if_neg (by rw [h.1]; decide), ih h.2,
      List.append_assoc]; rfl

theorem tf_edge (cur s : Text) (hc : cur ≠ []) (he : Edge s) :
    tokensFrom cur s = cur :: tokensFrom [] s := by
  rcases he with rfl | ⟨x, r, rfl, hx⟩
  · rw [tokensFrom, if_neg hc]; rfl
  · rw [tokensFrom, sp_eq, if_pos hx, if_neg hc, tokensFrom, sp_eq, if_pos hx, if_pos rfl]

theorem tokens_cons (w t s : Text) (hw : Blank w) (ht : Solid t) (he : Edge s) :
    tokens (w ++ t ++ s) = t :: tokens s := by
  unfold tokens
  rw [List.append_assoc, tf_blank _ _ hw, tf_word _ _ ht.2, List.nil_append, tf_edge _ _ ht.1 he]

theorem tokens_blank (w : Text) (hw : Blank w) : tokens w = [] := by
  have := tf_blank w [] hw
  rw [List.append_nil] at this
  exact this

/-- Every text is blank or starts, after blanks, with a word. -/
theorem peel (s : Text) : Blank s ∨ ∃ w t r, s = w ++ t ++ r ∧ Blank w ∧ Solid t ∧ Edge r := by
  have e1 : s.takeWhile sp ++ s.dropWhile sp = s := List.takeWhile_append_dropWhile
  have hw : Blank (s.takeWhile sp) := List.all_takeWhile
  cases hd : s.dropWhile sp with
  | nil =>
    left
    rw [hd, List.append_nil] at e1
    rw [← e1]; exact hw
  | cons x d =>
    right
    have hx : sp x = false := by
      have := List.head?_dropWhile_not sp s
      rw [hd] at this
      simpa using this
    have e2 : (x :: d).takeWhile (fun c => !sp c) ++ (x :: d).dropWhile (fun c => !sp c) = x :: d :=
      List.takeWhile_append_dropWhile
    refine ⟨s.takeWhile sp, (x :: d).takeWhile (fun c => !sp c), (x :: d).dropWhile (fun c => !sp c),
      ?_, hw, ⟨?_, List.all_takeWhile⟩, ?_⟩
    · rw [List.append_assoc, e2, ← hd, e1]
    · rw [List.takeWhile_cons, hx]; simp
    · cases he : (x :: d).dropWhile (fun c => !sp c) with
      | nil => exact .inl rfl
      | cons y r =>
        right
        refine ⟨y, r, rfl, ?_⟩
        have := List.head?_dropWhile_not (fun c => !sp c) (x :: d)
        rw [he] at this
        simpa using this

theorem tokens_nil (s : Text) : tokens s = [] ↔ Blank s := by
  constructor
  · intro h
    rcases peel s with hb | ⟨w, t, r, rfl, hw, ht, he⟩
    · exact hb
    · rw [tokens_cons w t r hw ht he] at h; cases h
  · exact tokens_blank s

theorem tokens_cons_inv {s t : Text} {ts : List Text} (h : tokens s = t :: ts) :
    ∃ w r, s = w ++ t ++ r ∧ Blank w ∧ Solid t ∧ Edge r ∧ tokens r = ts := by
  rcases peel s with hb | ⟨w, t', r, rfl, hw, ht, he⟩
  · rw [tokens_blank s hb] at h; cases h
  · rw [tokens_cons w t' r hw ht he] at h
    cases h
    exact ⟨w, r, rfl, hw, ht, he, rfl⟩

/-- `s` starts with the words `ts`, and `rest` is what follows the last of them. The blanks before
the first word may be missing if `first`. -/
def Front : Bool → Text → List Text → Text → Prop
  | _, s, [], rest => s = rest
  | first, s, t :: ts, rest => ∃ w s1, s = w ++ t ++ s1 ∧ Blank w ∧ (first = false → w ≠ []) ∧ Solid t
      ∧ Front false s1 ts rest

theorem front_edge {ts : List Text} {s rest : Text} (h : Front false s ts rest) (he : Edge rest) :
    Edge s := by
  cases ts with
  | nil => simp only [Front] at h; rw [h]; exact he
  | cons t ts =>
    obtain ⟨w, s1, rfl, hw, hne, _, _⟩ := h
    right
    cases w with
    | nil => exact absurd rfl (hne rfl)
    | cons x w =>
      simp only [Blank, List.all_cons, Bool.and_eq_true] at hw
      exact ⟨x, w ++ t ++ s1, by simp, hw.1⟩

theorem front_tokens : ∀ (ts : List Text) (b : Bool) (s rest : Text), Front b s ts rest → Edge rest →
    tokens s = ts ++ tokens rest := by
  intro ts
  induction ts with
  | nil => intro b s rest h _; simp only [Front] at h; rw [h]; rfl
  | cons t ts ih =>
    intro b s rest h he
    obtain ⟨w, s1, rfl, hw, _, ht, hf⟩ := h
    rw [tokens_cons w t s1 hw ht (front_edge hf he), ih false s1 rest hf he]; rfl

theorem tokens_front : ∀ (ts us : List Text) (b : Bool) (s : Text), tokens s = ts ++ us →
    (b = false → Edge s) → (ts = [] → Edge s) →
    ∃ rest, Front b s ts rest ∧ Edge rest ∧ tokens rest = us := by
  intro ts
  induction ts with
  | nil => intro us b s h _ he; exact ⟨s, rfl, he rfl, h⟩
  | cons t ts ih =>
    intro us b s h hb _
    obtain ⟨w, r, rfl, hw, ht, he, hr⟩ := tokens_cons_inv h
    obtain ⟨rest, h1, h2, h3⟩ := ih us false r hr (fun _ => he) (fun _ => he)
    refine ⟨rest, ⟨w, r, rfl, hw, ?_, ht, h1⟩, h2, h3⟩
    intro hbf hwn
    subst hwn
    rcases hb hbf with h0 | ⟨x, q, h0, hx⟩
    · cases t with
      | nil => exact ht.1 rfl
      | cons y t => cases h0
    · cases t with
      | nil => exact ht.1 rfl
      | cons y t =>
        simp only [List.nil_append, List.cons_append, List.cons.injEq] at h0
        have := ht.2
        simp only [List.all_cons, Bool.and_eq_true, Bool.not_eq_true'] at this
        rw [← h0.1, this.1] at hx
        cases hx

/-- An expression for one word. -/
def Token (r : Re) : Prop := ∀ w c, Lang r w c → Solid w

/-- Word by word. -/
def LangT : List Re → List Text → Caps → Prop
  | [], [], c => c = []
  | r :: rs, t :: ts, c => ∃ c1 c2, c = c1 ++ c2 ∧ Lang r t c1 ∧ LangT rs ts c2
  | _, _, _ => False

theorem lang_words : ∀ (rs : List Re) (tail : Re) (s : Text) (c : Caps), rs ≠ [] →
    (∀ r ∈ rs, Token r) → ∀ b : Bool,
    (Lang (.seq (if b then ws else gap) (words rs tail)) s c ↔
      ∃ ts rest c1 c2, Front b s ts rest ∧ c = c1 ++ c2 ∧ LangT rs ts c1 ∧ Lang tail rest c2) := by
  intro rs
  induction rs with
  | nil => intro _ _ _ h; exact absurd rfl h
  | cons r rs ih =>
    intro tail s c _ htok b
    have hr := htok r (List.mem_cons_self)
    have hrs : ∀ r ∈ rs, Token r := fun r h => htok r (List.mem_cons_of_mem _ h)
    have hgap : ∀ w c0, Lang (if b then ws else gap) w c0 ↔ Blank w ∧ (b = false → w ≠ []) ∧ c0 = [] := by
      intro w c0
      cases b with
      | true => simp [ws, Lang, Blank]
      | false =>
        simp only [gap, Lang, Blank, Bool.false_eq_true, if_false, forall_const]
        constructor
        · rintro ⟨h1, h2, h3⟩; exact ⟨h2, h1, h3⟩
        · rintro ⟨h1, h2, h3⟩; exact ⟨h2, h1, h3⟩
    cases rs with
    | nil =>
      simp only [words]
      constructor
      · rintro ⟨w, w2, c0, c2, rfl, rfl, h1, h2⟩
        obtain ⟨t, s1, c1, c3, rfl, rfl, h3, h4⟩ := h2
        obtain ⟨hb, hne, rfl⟩ := (hgap w c0).mp h1
        exact ⟨[t], s1, c1, c3, ⟨w, s1, by rw [List.append_assoc], hb, hne, hr t c1 h3, rfl⟩, rfl,
          ⟨c1, [], (List.append_nil c1).symm, h3, rfl⟩, h4⟩
      · rintro ⟨ts, rest, c1, c2, hf, rfl, hl, ht⟩
        cases ts with
        | nil => exact hl.elim
        | cons t ts =>
          obtain ⟨ca, cb, rfl, hla, hlb⟩ := hl
          cases ts with
          | cons _ _ => exact hlb.elim
          | nil =>
            have : cb = [] := hlb
            subst this
            obtain ⟨w, s1, rfl, hw, hne, _, h⟩ := hf
            have : s1 = rest := h
            subst this
            exact ⟨w, t ++ s1, [], ca ++ c2, by rw [List.append_assoc], by rw [List.append_nil]; rfl,
              (hgap w []).mpr ⟨hw, hne, rfl⟩, t, s1, ca, c2, rfl, rfl, hla, ht⟩
    | cons r2 rs2 =>
      have ih' := ih tail
      simp only [words]
      constructor
      · rintro ⟨w, w2, c0, c2, rfl, rfl, h1, h2⟩
        obtain ⟨t, s1, c1, c3, rfl, rfl, h3, h4⟩ := h2
        obtain ⟨hb, hne, rfl⟩ := (hgap w c0).mp h1
        obtain ⟨ts, rest, ca, cb, hf, rfl, hl, ht⟩ := (ih' s1 c3 (by simp) hrs false).mp h4
        exact ⟨t :: ts, rest, c1 ++ ca, cb, ⟨w, s1, by rw [List.append_assoc], hb, hne, hr t c1 h3, hf⟩,
          by simp, ⟨c1, ca, rfl, h3, hl⟩, ht⟩
      · rintro ⟨ts, rest, c1, c2, hf, rfl, hl, ht⟩
        cases ts with
        | nil => exact hl.elim
        | cons t ts =>
          obtain ⟨ca, cb, rfl, hla, hlb⟩ := hl
          obtain ⟨w, s1, rfl, hw, hne, _, h⟩ := hf
          have := (ih' s1 (cb ++ c2) (by simp) hrs false).mpr ⟨ts, rest, cb, c2, h, rfl, hlb, ht⟩
          exact ⟨w, t ++ s1, [], ca ++ (cb ++ c2), by rw [List.append_assoc], by simp,
            (hgap w []).mpr ⟨hw, hne, rfl⟩, t, s1, ca, cb ++ c2, rfl, rfl, hla, this⟩

theorem edge_of_blank {s : Text} (h : Blank s) : Edge s := by
  cases s with
  | nil => exact .inl rfl
  | cons x s =>
    simp only [Blank, List.all_cons, Bool.and_eq_true] at h
    exact .inr ⟨x, s, rfl, h.1⟩

theorem lang_line (rs : List Re) (h0 : rs ≠ []) (ht : ∀ r ∈ rs, Token r) (s : Text) (c : Caps) :
    Lang (line rs) s c ↔ LangT rs (tokens s) c := by
  have := lang_words rs ws s c h0 ht true
  simp only [if_true] at this
  rw [show line rs = .seq ws (words rs ws) from rfl, this]
  constructor
  · rintro ⟨ts, rest, c1, c2, hf, rfl, hl, hw, rfl⟩
    have hb : Blank rest := hw
    rw [front_tokens ts true s rest hf (edge_of_blank hb), tokens_blank rest hb, List.append_nil,
      List.append_nil]
    exact hl
  · intro hl
    have hne : tokens s ≠ [] := by
      intro e
      rw [e] at hl
      cases rs with
      | nil => exact h0 rfl
      | cons _ _ => exact hl
    obtain ⟨rest, h1, h2, h3⟩ := tokens_front (tokens s) [] true s (by rw [List.append_nil])
      (fun h => by cases h) (fun h => absurd h hne)
    exact ⟨tokens s, rest, c, [], h1, (List.append_nil c).symm, hl, (tokens_nil rest).mp h3, rfl⟩

end Verif.Shell
