import Verif.Shell.Lang
/-
Proof infrastructure for the command shell: matching a line word by word.
-/
namespace Verif.Shell
open Spec (tokens tokensFrom)

/-- Matching words against expressions one by one. -/
def tm : List Re → List Text → Option Caps
  | [], [] => some []
  | r :: rs, t :: ts =>
    match full r t with
    | some c => (tm rs ts).map (c ++ ·)
    | none => none
  | _, _ => none

/-- The groups are determined by the text. -/
def Det (r : Re) : Prop := ∀ w c c', Lang r w c → Lang r w c' → c' = c

theorem full_det {r : Re} (d : Det r) {t : Text} {c : Caps} : full r t = some c ↔ Lang r t c :=
  ⟨full_some, fun h => full_eq h (fun c' h' => d t c c' h h')⟩

theorem langT_tm : ∀ (rs : List Re) (ts : List Text) (c : Caps), (∀ r ∈ rs, Det r) →
    (LangT rs ts c ↔ tm rs ts = some c) := by
  intro rs
  induction rs with
  | nil =>
    intro ts c _
    cases ts with
    | nil =>
      simp only [LangT, tm, Option.some.injEq]
      exact ⟨fun h => h.symm, fun h => h.symm⟩
    | cons t ts => simp [LangT, tm]
  | cons r rs ih =>
    intro ts c hd
    have hr := hd r List.mem_cons_self
    have ih' := fun ts c => ih ts c (fun r h => hd r (List.mem_cons_of_mem _ h))
    cases ts with
    | nil => simp [LangT, tm]
    | cons t ts =>
      simp only [LangT, tm]
      constructor
      · rintro ⟨c1, c2, rfl, h1, h2⟩
        rw [(full_det hr).mpr h1, (ih' ts c2).mp h2]; rfl
      · intro h
        cases e : full r t with
        | none => rw [e] at h; cases h
        | some c1 =>
          rw [e] at h
          cases e2 : tm rs ts with
          | none => rw [e2] at h; cases h
          | some c2 =>
            rw [e2] at h
            exact ⟨c1, c2, by simpa using h.symm, full_some e, (ih' ts c2).mpr e2⟩

/-- An expression for one word with determined groups. -/
def Good (r : Re) : Prop := Token r ∧ Det r

theorem full_line {rs : List Re} (h0 : rs ≠ []) (hg : ∀ r ∈ rs, Good r) (s : Text) :
    full (line rs) s = tm rs (tokens s) := by
  have hl := lang_line rs h0 (fun r h => (hg r h).1) s
  cases e : tm rs (tokens s) with
  | some c =>
    have h1 := (hl c).mpr ((langT_tm rs _ c (fun r h => (hg r h).2)).mpr e)
    refine full_eq h1 (fun c' h' => ?_)
    have := (langT_tm rs _ c' (fun r h => (hg r h).2)).mp ((hl c').mp h')
    rw [e] at this
    exact (Option.some.inj this).symm
  | none =>
    refine full_none (fun c h => ?_)
    have := (langT_tm rs _ c (fun r h => (hg r h).2)).mp ((hl c).mp h)
    rw [e] at this; cases this

/-! ## The expressions for words -/

theorem wrd_sp (c : Char) (h : wrd c = true) : sp c = false := by
  cases e : sp c with
  | false => rfl
  | true =>
    exfalso
    simp only [sp, Bool.or_eq_true, decide_eq_true_eq] at e
    rcases e with (((rfl | rfl) | rfl) | rfl) | rfl <;> revert h <;> decide

theorem dig_wrd (c : Char) (h : dig c = true) : wrd c = true := by
  simp [wrd, h]

theorem solid_of {t : Text} (h0 : t ≠ []) {p : Char → Bool} (h : t.all p = true)
    (hp : ∀ c, p c = true → sp c = false) : Solid t := by
  refine ⟨h0, ?_⟩
  rw [List.all_eq_true] at h ⊢
  intro x hx
  rw [hp x (h x hx)]; rfl

/-- Expressions described by a test and the groups. -/
def Is (r : Re) (q : Text → Bool) (f : Text → Caps) : Prop :=
  ∀ t c, Lang r t c ↔ (q t = true ∧ c = f t)

theorem Is.det {r : Re} {q : Text → Bool} {f : Text → Caps} (h : Is r q f) : Det r := by
  intro w c c' h1 h2
  rw [((h w c).mp h1).2, ((h w c').mp h2).2]

theorem Is.full {r : Re} {q : Text → Bool} {f : Text → Caps} (h : Is r q f) (t : Text) :
    full r t = if q t then some (f t) else none := by
  split
  · rename_i e
    exact (full_det h.det).mpr ((h t _).mpr ⟨e, rfl⟩)
  · rename_i e
    exact full_none (fun c hc => e ((h t c).mp hc).1)

theorem Is.good {r : Re} {q : Text → Bool} {f : Text → Caps} (h : Is r q f)
    (hs : ∀ t, q t = true → Solid t) : Good r :=
  ⟨fun w c hl => hs w ((h w c).mp hl).1, h.det⟩

theorem is_lit (t : Text) : Is (.lit t) (fun u => u = t) (fun _ => []) := by
  intro u c
  simp only [Lang, decide_eq_true_eq]

def allOf (p : Char → Bool) (t : Text) : Bool := !t.isEmpty && t.all p

theorem is_plus (p : Char → Bool) : Is (.plus p) (allOf p) (fun _ => []) := by
  intro u c
  simp only [Lang, allOf, Bool.and_eq_true, Bool.not_eq_true', List.isEmpty_eq_false_iff, ne_eq,
    and_assoc]

theorem Is.grp {r : Re} {q : Text → Bool} {f : Text → Caps} (h : Is r q f) :
    Is (.grp r) q (fun t => some t :: f t) := by
  intro t c
  simp only [Lang]
  constructor
  · rintro ⟨c1, rfl, h1⟩
    obtain ⟨h2, rfl⟩ := (h t c1).mp h1
    exact ⟨h2, rfl⟩
  · rintro ⟨h1, rfl⟩
    exact ⟨f t, rfl, (h t _).mpr ⟨h1, rfl⟩⟩

theorem is_num : Is num (allOf dig) (fun t => [some t]) := (is_plus dig).grp
theorem is_word : Is word (allOf wrd) (fun t => [some t]) := (is_plus wrd).grp

/-- A name, possibly after a dollar sign. -/
def isDname (t : Text) : Bool :=
  match t with
  | '$' :: u => allOf wrd u
  | _ => allOf wrd t

theorem isDname_dollar (u : Text) : isDname ('$' :: u) = allOf wrd u := rfl

theorem isDname_other (t : Text) (h : t.head? ≠ some '$') : isDname t = allOf wrd t := by
  unfold isDname
  split
  · exact absurd rfl h
  · rfl

theorem allOf_head {p : Char → Bool} {t : Text} (h : allOf p t = true) (d : Char) (hd : p d = false) :
    t.head? ≠ some d := by
  intro e
  cases t with
  | nil => cases e
  | cons x t =>
    simp only [List.head?_cons, Option.some.injEq] at e
    subst e
    simp only [allOf, List.all_cons, Bool.and_eq_true, hd] at h
    exact absurd h.2.1 (by decide)

/-- After an optional dollar sign: expressions that do not match one themselves. -/
theorem is_dollar {r : Re} {p : Char → Bool} {f : Text → Caps} (h : Is r (allOf p) f)
    (hd : p '$' = false) :
    Is (.seq (.opt (k "$")) r)
      (fun t => match t with | '$' :: u => allOf p u | _ => allOf p t)
      (fun t => match t with | '$' :: u => f u | _ => f t) := by
  intro t c
  simp only [Lang, k]
  constructor
  · rintro ⟨w1, w2, c1, c2, rfl, rfl, (⟨rfl, rfl⟩ | ⟨rfl, rfl⟩), h2⟩
    · obtain ⟨h3, rfl⟩ := (h w2 c2).mp h2
      exact ⟨h3, rfl⟩
    · obtain ⟨h3, rfl⟩ := (h w2 c2).mp h2
      have hh := allOf_head h3 '$' hd
      simp only [List.nil_append, Re.nones]
      split
      · exact absurd rfl hh
      · exact ⟨h3, rfl⟩
  · rintro ⟨h1, rfl⟩
    split
    · rename_i u
      exact ⟨['$'], u, [], f u, rfl, rfl, .inl ⟨rfl, rfl⟩, (h u _).mpr ⟨h1, rfl⟩⟩
    · rename_i hne
      have h1' : allOf p t = true := by
        cases t with
        | nil => exact h1
        | cons x t =>
          by_cases hx : x = '$'
          · exact absurd (by rw [hx]) (hne t)
          · have : allOf p (x :: t) = true := by
              revert h1
              split
              · rename_i heq; cases heq; exact absurd rfl hx
              · exact id
            exact this
      exact ⟨[], t, [], f t, rfl, rfl, .inr ⟨rfl, rfl⟩, (h t _).mpr ⟨h1', rfl⟩⟩

theorem is_dname : Is dname isDname (fun t => [some t]) := by
  intro t c
  have := (is_dollar (is_plus wrd) (by decide)).grp t c
  rw [show dname = .grp (.seq (.opt (k "$")) (.plus wrd)) from rfl, this]
  refine and_congr Iff.rfl ?_
  dsimp only
  split <;> exact Iff.rfl

theorem is_plusLast (p : Char → Bool) :
    Is (.plusLast p) (allOf p) (fun w => [w.getLast?.map fun x => [x]]) := by
  intro u c
  simp only [Lang, allOf, Bool.and_eq_true, Bool.not_eq_true', List.isEmpty_eq_false_iff, ne_eq,
    and_assoc]

def wdot (c : Char) : Bool := wrd c || c = '.'

def isDotted (t : Text) : Bool :=
  match t with
  | '$' :: u => allOf wdot u
  | _ => allOf wdot t

/-- The second group, which the shell does not use. -/
def dottedCaps (t : Text) : Caps :=
  some t :: (match t with
    | '$' :: u => [u.getLast?.map fun x => [x]]
    | _ => [t.getLast?.map fun x => [x]])

theorem is_dotted : Is dotted isDotted dottedCaps := by
  intro t c
  have := (is_dollar (is_plusLast wdot) (by decide)).grp t c
  rw [show dotted = .grp (.seq (.opt (k "$")) (.plusLast wdot)) from rfl, this]
  exact Iff.rfl

/-- A mark followed by a number. -/
def isMarked (m : Char) (t : Text) : Bool :=
  match t with
  | [] => false
  | x :: u => x = m && allOf dig u

theorem is_marked (m : String) (x : Char) (hm : m.toList = [x]) :
    Is (.seq (k m) num) (isMarked x) (fun t => [some (t.drop 1)]) := by
  intro t c
  simp only [Lang, k, hm]
  constructor
  · rintro ⟨w1, w2, c1, c2, rfl, rfl, ⟨rfl, rfl⟩, h2⟩
    obtain ⟨h3, rfl⟩ := (is_num w2 c2).mp h2
    exact ⟨by simp only [isMarked, List.cons_append, List.nil_append, h3]; simp, rfl⟩
  · rintro ⟨h1, rfl⟩
    cases t with
    | nil => cases h1
    | cons y t =>
      simp only [isMarked, Bool.and_eq_true, decide_eq_true_eq] at h1
      obtain ⟨rfl, h1⟩ := h1
      exact ⟨[y], t, [], [some t], rfl, rfl, ⟨rfl, rfl⟩, (is_num t _).mpr ⟨h1, rfl⟩⟩

theorem is_run : Is (.alt (k "run") (k "c")) (fun t => t = "run".toList || t = "c".toList)
    (fun _ => []) := by
  intro t c
  simp only [Lang, k, Re.nones, Bool.or_eq_true, decide_eq_true_eq]
  constructor
  · rintro (⟨c1, rfl, rfl, rfl⟩ | ⟨c1, rfl, rfl, rfl⟩)
    · exact ⟨.inl rfl, rfl⟩
    · exact ⟨.inr rfl, rfl⟩
  · rintro ⟨rfl | rfl, rfl⟩
    · exact .inl ⟨[], rfl, rfl, rfl⟩
    · exact .inr ⟨[], rfl, rfl, rfl⟩

/-! Evaluation on words. -/

theorem full_k (s : String) (t : Text) : full (k s) t = if t = s.toList then some [] else none := by
  have := (is_lit s.toList).full t
  simpa [k] using this
theorem full_num (t : Text) : full num t = if allOf dig t then some [some t] else none := is_num.full t
theorem full_word (t : Text) : full word t = if allOf wrd t then some [some t] else none := is_word.full t
theorem full_dname (t : Text) : full dname t = if isDname t then some [some t] else none :=
  is_dname.full t
theorem full_dotted (t : Text) : full dotted t = if isDotted t then some (dottedCaps t) else none :=
  is_dotted.full t
theorem full_hash (t : Text) : full (.seq (k "#") num) t = if isMarked '#' t then some [some (t.drop 1)] else none :=
  (is_marked "#" '#' rfl).full t
theorem full_asterisk (t : Text) : full (.seq (k "*") num) t = if isMarked '*' t then some [some (t.drop 1)] else none :=
  (is_marked "*" '*' rfl).full t
theorem full_run (t : Text) : full (.alt (k "run") (k "c")) t
    = if t = "run".toList ∨ t = "c".toList then some [] else none := by
  have := is_run.full t
  simpa using this

theorem allOf_solid {p : Char → Bool} (hp : ∀ c, p c = true → sp c = false) {t : Text}
    (h : allOf p t = true) : Solid t := by
  simp only [allOf, Bool.and_eq_true, Bool.not_eq_true', List.isEmpty_eq_false_iff] at h
  exact solid_of h.1 h.2 hp

theorem wdot_sp (c : Char) (h : wdot c = true) : sp c = false := by
  simp only [wdot, Bool.or_eq_true, decide_eq_true_eq] at h
  rcases h with h | rfl
  · exact wrd_sp c h
  · decide

theorem solid_cons {x : Char} {t : Text} (hx : sp x = false) (h : Solid t) : Solid (x :: t) := by
  refine ⟨by simp, ?_⟩
  simp only [List.all_cons, hx, h.2]; rfl

theorem good_num : Good num := is_num.good (fun _ h => allOf_solid (fun c hc => wrd_sp c (dig_wrd c hc)) h)
theorem good_word : Good word := is_word.good (fun _ h => allOf_solid wrd_sp h)
theorem good_dname : Good dname := is_dname.good (fun t h => by
  unfold isDname at h
  split at h
  · exact solid_cons (by decide) (allOf_solid wrd_sp h)
  · exact allOf_solid wrd_sp h)
theorem good_dotted : Good dotted := is_dotted.good (fun t h => by
  unfold isDotted at h
  split at h
  · exact solid_cons (by decide) (allOf_solid wdot_sp h)
  · exact allOf_solid wdot_sp h)
theorem good_marked (m : String) (x : Char) (hm : m.toList = [x]) (hx : sp x = false) :
    Good (.seq (k m) num) := (is_marked m x hm).good (fun t h => by
  cases t with
  | nil => cases h
  | cons y t =>
    simp only [isMarked, Bool.and_eq_true, decide_eq_true_eq] at h
    obtain ⟨rfl, h⟩ := h
    exact solid_cons hx (allOf_solid (fun c hc => wrd_sp c (dig_wrd c hc)) h))
theorem good_k (s : String) (h : s.toList ≠ [] ∧ s.toList.all (fun c => !sp c) = true) : Good (k s) :=
  (is_lit s.toList).good (fun t ht => by
    have : t = s.toList := by simpa using ht
    rw [this]; exact h)
theorem good_run : Good (.alt (k "run") (k "c")) := is_run.good (fun t ht => by
  simp only [Bool.or_eq_true, decide_eq_true_eq] at ht
  rcases ht with rfl | rfl <;> exact ⟨by decide, by decide⟩)

/-! ## Lines with an optional last word -/

/-- `tail` matches nothing but blanks, or one more word for which `q` holds; its one group holds
that word, after blanks of the line unless `e`. -/
structure TailOk (e : Bool) (tail : Re) (q : Text → Bool) : Prop where
  fwd : ∀ rest c, Lang tail rest c → Edge rest ∧ ((tokens rest = [] ∧ c = [none]) ∨
    ∃ t w, tokens rest = [t] ∧ q t = true ∧ Blank w ∧ (∀ x ∈ w, x ∈ rest) ∧
      (e = true → w = []) ∧ c = [some (w ++ t)])
  none : ∀ rest, Blank rest → Lang tail rest [none]
  word : ∀ rest t, Edge rest → tokens rest = [t] → q t = true → ∃ c, Lang tail rest c

/-- Word by word, with the optional last word. -/
def tmTail (q : Text → Bool) : List Re → List Text → Option (Caps × Option Text)
  | [], [] => some ([], none)
  | [], [t] => if q t then some ([], some t) else none
  | r :: rs, t :: ts =>
    match full r t with
    | some c => (tmTail q rs ts).map (fun x => (c ++ x.1, x.2))
    | none => none
  | _, _ => none

theorem tmTail_iff (q : Text → Bool) : ∀ (rs : List Re) (ts : List Text) (c : Caps) (o : Option Text),
    tmTail q rs ts = some (c, o) ↔
      ((o = none ∧ tm rs ts = some c) ∨
       ∃ us t, o = some t ∧ ts = us ++ [t] ∧ q t = true ∧ tm rs us = some c) := by
  intro rs
  induction rs with
  | nil =>
    intro ts c o
    match ts with
    | [] =>
      simp only [tmTail, tm, Option.some.injEq, Prod.mk.injEq]
      constructor
      · rintro ⟨rfl, rfl⟩; exact .inl ⟨rfl, rfl⟩
      · rintro (⟨rfl, rfl⟩ | ⟨us, t, _, h, _⟩)
        · exact ⟨rfl, rfl⟩
        · simp at h
    | [t] =>
      simp only [tmTail]
      constructor
      · intro h
        split at h
        · rename_i hq
          cases h
          exact .inr ⟨[], t, rfl, rfl, hq, rfl⟩
        · cases h
      · rintro (⟨rfl, h⟩ | ⟨us, t', rfl, h, hq, h2⟩)
        · simp [tm] at h
        · cases us with
          | nil =>
            simp only [List.nil_append, List.cons.injEq, and_true] at h
            subst h
            rw [if_pos hq]
            simp only [tm, Option.some.injEq] at h2
            rw [h2]
          | cons u us => simp [tm] at h2
    | t1 :: t2 :: ts =>
      simp only [tmTail, tm, reduceCtorEq, and_false, false_or, false_iff]
      rintro ⟨us, t', rfl, h, hq, h2⟩
      cases us with
      | nil => simp at h
      | cons u us => simp [tm] at h2
  | cons r rs ih =>
    intro ts c o
    cases ts with
    | nil =>
      simp only [tmTail, tm, reduceCtorEq, and_false, false_or, false_iff]
      rintro ⟨us, t', _, h, _⟩
      simp at h
    | cons t ts =>
      simp only [tmTail, tm]
      cases e : full r t with
      | none =>
        simp only [reduceCtorEq, and_false, false_or, false_iff]
        rintro ⟨us, t', rfl, h, hq, h2⟩
        cases us with
        | nil => simp [tm] at h2
        | cons u us =>
          simp only [List.cons_append, List.cons.injEq] at h
          obtain ⟨rfl, rfl⟩ := h
          rw [tm, e] at h2; cases h2
      | some c1 =>
        simp only [Option.map_eq_some_iff, Prod.exists, Prod.mk.injEq]
        constructor
        · rintro ⟨c2, o', h1, rfl, rfl⟩
          rcases (ih ts c2 o').mp h1 with ⟨rfl, h2⟩ | ⟨us, t', rfl, rfl, hq, h2⟩
          · exact .inl ⟨rfl, c2, h2, rfl⟩
          · exact .inr ⟨t :: us, t', rfl, rfl, hq, by rw [tm, e]; simp [h2]⟩
        · rintro (⟨rfl, c2, h2, rfl⟩ | ⟨us, t', rfl, h, hq, h2⟩)
          · exact ⟨c2, none, (ih ts c2 none).mpr (.inl ⟨rfl, h2⟩), rfl, rfl⟩
          · cases us with
            | nil => simp [tm] at h2
            | cons u us =>
              simp only [List.cons_append, List.cons.injEq] at h
              obtain ⟨rfl, rfl⟩ := h
              rw [tm, e] at h2
              simp only [Option.map_eq_some_iff] at h2
              obtain ⟨c2, h2, rfl⟩ := h2
              exact ⟨c2, some t', (ih _ c2 _).mpr (.inr ⟨us, t', rfl, rfl, hq, h2⟩), rfl, rfl⟩

theorem front_mem : ∀ (ts : List Text) (b : Bool) (s rest : Text), Front b s ts rest → ∀ x ∈ rest, x ∈ s := by
  intro ts
  induction ts with
  | nil => intro b s rest h x hx; simp only [Front] at h; rw [h]; exact hx
  | cons t ts ih =>
    intro b s rest h x hx
    obtain ⟨w, s1, rfl, _, _, _, hf⟩ := h
    exact List.mem_append_right _ (ih false s1 rest hf x hx)

theorem lang_tail {e : Bool} {tail : Re} {q : Text → Bool} (tk : TailOk e tail q) {rs : List Re} (h0 : rs ≠ [])
    (hg : ∀ r ∈ rs, Good r) (s : Text) :
    (∀ c, Lang (.seq ws (words rs tail)) s c →
      (∃ c1, tmTail q rs (tokens s) = some (c1, none) ∧ c = c1 ++ [none]) ∨
      (∃ c1 t w, tmTail q rs (tokens s) = some (c1, some t) ∧ Blank w ∧ (∀ x ∈ w, x ∈ s) ∧
        (e = true → w = []) ∧ c = c1 ++ [some (w ++ t)]))
    ∧ (∀ x, tmTail q rs (tokens s) = some x → ∃ c, Lang (.seq ws (words rs tail)) s c) := by
  have hl := fun c => lang_words rs tail s c h0 (fun r h => (hg r h).1) true
  simp only [if_true] at hl
  have hd : ∀ r ∈ rs, Det r := fun r h => (hg r h).2
  have hne0 : ∀ ts c, tm rs ts = some c → ts ≠ [] := by
    intro ts c h e
    subst e
    cases rs with
    | nil => exact h0 rfl
    | cons _ _ => cases h
  constructor
  · intro c h
    obtain ⟨ts, rest, c1, c2, hf, rfl, hlt, ht⟩ := (hl c).mp h
    have htm := (langT_tm rs ts c1 hd).mp hlt
    obtain ⟨he, ⟨h1, rfl⟩ | ⟨t, w, h1, hq, hw, hm, hE, rfl⟩⟩ := tk.fwd rest c2 ht
    · left
      refine ⟨c1, (tmTail_iff q rs _ c1 none).mpr (.inl ⟨rfl, ?_⟩), rfl⟩
      rw [front_tokens ts true s rest hf he, h1, List.append_nil, htm]
    · right
      refine ⟨c1, t, w, (tmTail_iff q rs _ c1 (some t)).mpr (.inr ⟨ts, t, rfl, ?_, hq, htm⟩), hw,
        fun x hx => front_mem ts true s rest hf x (hm x hx), hE, rfl⟩
      rw [front_tokens ts true s rest hf he, h1]
  · rintro ⟨c1, o⟩ h
    rcases (tmTail_iff q rs _ c1 o).mp h with ⟨_, htm⟩ | ⟨us, t, _, hts, hq, htm⟩
    · obtain ⟨rest, hf, _, hr⟩ := tokens_front (tokens s) [] true s (by rw [List.append_nil])
        (fun h => by cases h) (fun h => absurd h (hne0 _ _ htm))
      exact ⟨_, (hl _).mpr ⟨tokens s, rest, c1, [none], hf, rfl, (langT_tm rs _ c1 hd).mpr htm,
        tk.none rest ((tokens_nil rest).mp hr)⟩⟩
    · obtain ⟨rest, hf, he, hr⟩ := tokens_front us [t] true s hts
        (fun h => by cases h) (fun h => absurd h (hne0 _ _ htm))
      obtain ⟨c2, hc2⟩ := tk.word rest t he hr hq
      exact ⟨_, (hl _).mpr ⟨us, rest, c1, c2, hf, rfl, (langT_tm rs _ c1 hd).mpr htm, hc2⟩⟩

/-- What the match of such a line gives to a user of the groups who does not mind the blanks. -/
theorem full_tail {e : Bool} {tail : Re} {q : Text → Bool} (tk : TailOk e tail q) {rs : List Re} (h0 : rs ≠ [])
    (hg : ∀ r ∈ rs, Good r) (s : Text) (make : Caps → Option Cmd) (m : Caps → Option Text → Option Cmd)
    (h1 : ∀ c, tmTail q rs (tokens s) = some (c, none) → make (c ++ [none]) = m c none)
    (h2 : ∀ c t w, tmTail q rs (tokens s) = some (c, some t) → Blank w → (∀ x ∈ w, x ∈ s) →
      (e = true → w = []) → make (c ++ [some (w ++ t)]) = m c (some t)) :
    (full (.seq ws (words rs tail)) s).bind make
      = (tmTail q rs (tokens s)).bind (fun x => m x.1 x.2) := by
  obtain ⟨hf, hb⟩ := lang_tail tk h0 hg s
  cases ee : tmTail q rs (tokens s) with
  | none =>
    rw [full_none]; · rfl
    intro c hc
    rcases hf c hc with ⟨c1, h, _⟩ | ⟨c1, t, w, h, _⟩ <;> rw [ee] at h <;> cases h
  | some x =>
    obtain ⟨c, hc⟩ := hb x ee
    obtain ⟨c', e2, hc'⟩ := full_of hc
    rw [e2]
    rcases hf c' hc' with ⟨c1, h, rfl⟩ | ⟨c1, t, w, h, hw, hm, hE, rfl⟩
    · have h' := h
      rw [ee] at h; cases h
      exact h1 c1 h'
    · have h' := h
      rw [ee] at h; cases h
      exact h2 c1 t w h' hw hm hE

end Verif.Shell
