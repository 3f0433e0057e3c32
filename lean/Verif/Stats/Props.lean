import Verif.Stats.Spec
import Verif.Shell.Rules
import Verif.ShellMem.Num
/-
C135: the shell command `stats`.
-/
namespace Verif.Stats
open Verif.Shell Verif.Shell.Spec
open Verif.Stats.Spec (Asks verb What Req)

/-! ## Which lines are `stats` commands -/

def verbRe : Re := .grp (.alt (k "enable") (k "disable"))
def whatRe : Re := .grp (.alt (k "counters") (.alt (k "iprofile") (.alt (k "mprofile") (k "all"))))
def placeTail : Re := .seq (.opt (.seq gap word)) ws

def isVerb (t : Text) : Bool := t = "enable".toList || t = "disable".toList
def isWhat (t : Text) : Bool :=
  t = "counters".toList || t = "iprofile".toList || t = "mprofile".toList || t = "all".toList

theorem is_verb : Is verbRe isVerb (fun t => [some t]) := by
  have h : Is (.alt (k "enable") (k "disable")) isVerb (fun _ => []) := by
    intro t c
    simp only [Lang, k, Re.nones, isVerb, Bool.or_eq_true, decide_eq_true_eq]
    constructor
    · rintro (⟨c1, rfl, rfl, rfl⟩ | ⟨c1, rfl, rfl, rfl⟩)
      · exact ⟨.inl rfl, rfl⟩
      · exact ⟨.inr rfl, rfl⟩
    · rintro ⟨rfl | rfl, rfl⟩
      · exact .inl ⟨[], rfl, rfl, rfl⟩
      · exact .inr ⟨[], rfl, rfl, rfl⟩
  exact h.grp

theorem is_what : Is whatRe isWhat (fun t => [some t]) := by
  have h : Is (.alt (k "counters") (.alt (k "iprofile") (.alt (k "mprofile") (k "all")))) isWhat
      (fun _ => []) := by
    intro t c
    simp only [Lang, k, Re.nones, isWhat, Bool.or_eq_true, decide_eq_true_eq]
    constructor
    · rintro (⟨c1, rfl, rfl, rfl⟩ | ⟨c1, rfl, ⟨c2, rfl, rfl, rfl⟩ | ⟨c2, rfl, ⟨c3, rfl, rfl, rfl⟩ |
        ⟨c3, rfl, rfl, rfl⟩⟩⟩)
      · exact ⟨.inl (.inl (.inl rfl)), rfl⟩
      · exact ⟨.inl (.inl (.inr rfl)), rfl⟩
      · exact ⟨.inl (.inr rfl), rfl⟩
      · exact ⟨.inr rfl, rfl⟩
    · rintro ⟨((rfl | rfl) | rfl) | rfl, rfl⟩
      · exact .inl ⟨[], rfl, rfl, rfl⟩
      · exact .inr ⟨[], rfl, .inl ⟨[], rfl, rfl, rfl⟩⟩
      · exact .inr ⟨[], rfl, .inr ⟨[], rfl, .inl ⟨[], rfl, rfl, rfl⟩⟩⟩
      · exact .inr ⟨[], rfl, .inr ⟨[], rfl, .inr ⟨[], rfl, rfl, rfl⟩⟩⟩
  exact h.grp

theorem verb_iff (t : Text) : isVerb t = true ↔ ∃ b, t = verb b := by
  simp only [isVerb, Bool.or_eq_true, decide_eq_true_eq]
  constructor
  · rintro (rfl | rfl)
    · exact ⟨true, rfl⟩
    · exact ⟨false, rfl⟩
  · rintro ⟨b, rfl⟩; cases b
    · exact .inr rfl
    · exact .inl rfl

theorem what_iff (t : Text) : isWhat t = true ↔ ∃ x : What, t = x.text := by
  simp only [isWhat, Bool.or_eq_true, decide_eq_true_eq]
  constructor
  · rintro (((rfl | rfl) | rfl) | rfl)
    · exact ⟨.counters, rfl⟩
    · exact ⟨.iprofile, rfl⟩
    · exact ⟨.mprofile, rfl⟩
    · exact ⟨.all, rfl⟩
  · rintro ⟨x, rfl⟩; cases x
    · exact .inl (.inl (.inl rfl))
    · exact .inl (.inl (.inr rfl))
    · exact .inl (.inr rfl)
    · exact .inr rfl

theorem tail_place : TailOk true placeTail (allOf wrd) where
  fwd := by
    rintro rest c ⟨w1, w2, c1, c2, rfl, rfl, h1, hw2, rfl⟩
    have hw2 : Blank w2 := hw2
    rcases h1 with ⟨g, u, c3, c4, rfl, rfl, ⟨hg0, hg, rfl⟩, h2⟩ | ⟨rfl, rfl⟩
    · refine ⟨by rw [List.append_assoc]; exact edge_gap hg hg0, ?_⟩
      obtain ⟨hq, rfl⟩ := (is_word u c4).mp h2
      refine .inr ⟨u, [], tokens_one g u w2 hg (allOf_solid wrd_sp hq) hw2, hq, rfl, ?_, (fun _ => rfl), rfl⟩
      intro x hx; cases hx
    · refine ⟨by rw [List.nil_append]; exact edge_of_blank hw2, .inl ⟨?_, rfl⟩⟩
      rw [List.nil_append]; exact tokens_blank w2 hw2
  none := by
    intro rest h
    exact ⟨[], rest, [none], [], rfl, rfl, .inr ⟨rfl, rfl⟩, h, rfl⟩
  word := by
    intro rest t he h hq
    obtain ⟨g, r, rfl, hg, hg0, ht, hr⟩ := one_word he h
    exact ⟨[some t], g ++ t, r, [some t], [], rfl, rfl,
      .inl ⟨g, t, [], [some t], rfl, rfl, ⟨hg0, hg, rfl⟩, (is_word t _).mpr ⟨hq, rfl⟩⟩, hr, rfl⟩

def three : List Re := [k "stats", verbRe, whatRe]

theorem good_three : ∀ r ∈ three, Good r := by
  intro r h
  simp only [three, List.mem_cons, List.not_mem_nil, or_false] at h
  rcases h with rfl | rfl | rfl
  · exact good_k "stats" ⟨by decide, by decide⟩
  · exact is_verb.good (fun t ht => by
      obtain ⟨b, rfl⟩ := (verb_iff t).mp ht
      cases b <;> exact ⟨by decide, by decide⟩)
  · exact is_what.good (fun t ht => by
      obtain ⟨b, rfl⟩ := (what_iff t).mp ht
      cases b <;> exact ⟨by decide, by decide⟩)

theorem tm_three (ts : List Text) (c : Caps) : tm three ts = some c ↔
    ∃ r : Req, ts = ["stats".toList, verb r.on, r.what.text] ∧ c = [some (verb r.on), some r.what.text] := by
  constructor
  · intro h
    rcases ts with _ | ⟨a, _ | ⟨b, _ | ⟨d, _ | ⟨e, ts⟩⟩⟩⟩
    all_goals simp only [three, tm, full_k, is_verb.full, is_what.full] at h
    · cases h
    · split at h <;> cases h
    · split at h
      · split at h <;> simp at h
      · cases h
    · by_cases h1 : a = "stats".toList
      · by_cases h2 : isVerb b = true
        · by_cases h3 : isWhat d = true
          · obtain ⟨bb, rfl⟩ := (verb_iff b).mp h2
            obtain ⟨x, rfl⟩ := (what_iff d).mp h3
            subst h1
            simp only [if_true, h2, h3, Option.map_some, List.append_nil, List.nil_append,
              List.cons_append, Option.some.injEq] at h
            exact ⟨⟨bb, x⟩, rfl, h.symm⟩
          · simp [h1, h2, h3] at h
        · simp [h1, h2] at h
      · rw [if_neg h1] at h; cases h
    · exfalso
      by_cases h1 : a = "stats".toList
      · by_cases h2 : isVerb b = true
        · by_cases h3 : isWhat d = true
          · simp [h1, h2, h3] at h
          · simp [h1, h2, h3] at h
        · simp [h1, h2] at h
      · rw [if_neg h1] at h; cases h
  · rintro ⟨r, rfl, rfl⟩
    have h2 : isVerb (verb r.on) = true := (verb_iff _).mpr ⟨_, rfl⟩
    have h3 : isWhat r.what.text = true := (what_iff _).mpr ⟨_, rfl⟩
    simp [three, tm, full_k, is_verb.full, is_what.full, h2, h3]

theorem word_iff (t : Text) : allOf wrd t = true ↔ IsWord t := by
  have e : wrd = letter := by
    funext c
    simp only [wrd, dig, letter]
    have h1 : 'a'.toNat = 97 := rfl
    have h2 : 'z'.toNat = 122 := rfl
    have h3 : 'A'.toNat = 65 := rfl
    have h4 : 'Z'.toNat = 90 := rfl
    have h5 : '0'.toNat = 48 := rfl
    have h6 : '9'.toNat = 57 := rfl
    rw [h1, h2, h3, h4, h5, h6]
    cases decide (48 ≤ c.toNat) <;> cases decide (c.toNat ≤ 57) <;> cases decide (97 ≤ c.toNat) <;>
      cases decide (c.toNat ≤ 122) <;> cases decide (65 ≤ c.toNat) <;> cases decide (c.toNat ≤ 90) <;>
      cases decide (c = '_') <;> rfl
  simp only [allOf, IsWord, Bool.and_eq_true, Bool.not_eq_true', List.isEmpty_eq_false_iff, ne_eq, e]

theorem full_asks {s : Text} {c : Caps} (h : full statsRe s = some c) :
    ∃ r p, Asks (tokens s) r p ∧ c = [some (verb r.on), some r.what.text, p] := by
  obtain ⟨hf, -⟩ := lang_tail tail_place (rs := three) (by simp [three]) good_three s
  rcases hf c (full_some h) with ⟨c1, h1, rfl⟩ | ⟨c1, t, w, h1, -, -, hw, rfl⟩
  · rcases (tmTail_iff _ _ _ _ _).mp h1 with ⟨-, h2⟩ | ⟨us, t, h2, -⟩
    · obtain ⟨r, h3, rfl⟩ := (tm_three _ _).mp h2
      exact ⟨r, none, by rw [h3]; exact .now r, rfl⟩
    · cases h2
  · rcases (tmTail_iff _ _ _ _ _).mp h1 with ⟨h2, -⟩ | ⟨us, t', h2, h3, hq, h4⟩
    · cases h2
    · cases h2
      obtain ⟨r, h5, rfl⟩ := (tm_three _ _).mp h4
      rw [hw rfl]
      exact ⟨r, some t, by rw [h3, h5]; exact .at r t ((word_iff t).mp hq), rfl⟩

theorem asks_iff {ts : List Text} {r : Req} {p : Option Text} : Asks ts r p ↔
    (p = none ∧ ts = ["stats".toList, verb r.on, r.what.text]) ∨
    ∃ q, p = some q ∧ IsWord q ∧ ts = ["stats".toList, verb r.on, r.what.text, q] := by
  constructor
  · intro h
    cases h with
    | now => exact .inl ⟨rfl, rfl⟩
    | «at» _ q hq => exact .inr ⟨q, rfl, hq, rfl⟩
  · rintro (⟨rfl, rfl⟩ | ⟨q, rfl, hq, rfl⟩)
    · exact .now r
    · exact .at r q hq

theorem verb_inj : ∀ b b', verb b = verb b' → b = b' := by decide
theorem text_inj (x y : What) : x.text = y.text → x = y := by
  cases x <;> cases y <;> decide

theorem asks_unique {ts : List Text} {r r' : Req} {p p' : Option Text} (h : Asks ts r p) (h' : Asks ts r' p') :
    r' = r ∧ p' = p := by
  obtain ⟨on, what⟩ := r
  obtain ⟨on', what'⟩ := r'
  rw [asks_iff] at h h'
  rcases h with ⟨rfl, rfl⟩ | ⟨q, rfl, -, rfl⟩ <;> rcases h' with ⟨rfl, e⟩ | ⟨q', rfl, -, e⟩
  · simp only [List.cons.injEq, and_true, true_and] at e
    rw [verb_inj _ _ e.1, text_inj _ _ e.2]
    exact ⟨rfl, rfl⟩
  · simp at e
  · simp at e
  · simp only [List.cons.injEq, and_true, true_and] at e
    rw [verb_inj _ _ e.1, text_inj _ _ e.2.1, e.2.2]
    exact ⟨rfl, rfl⟩

theorem asks_full {s : Text} {r : Req} {p : Option Text} (h : Asks (tokens s) r p) :
    full statsRe s = some [some (verb r.on), some r.what.text, p] := by
  obtain ⟨-, hb⟩ := lang_tail tail_place (rs := three) (by simp [three]) good_three s
  have hx : ∃ x, tmTail (allOf wrd) three (tokens s) = some x := by
    rcases asks_iff.mp h with ⟨-, e⟩ | ⟨q, -, hq, e⟩ <;> rw [e]
    · exact ⟨(_, none), (tmTail_iff _ _ _ _ _).mpr (.inl ⟨rfl, (tm_three _ _).mpr ⟨r, rfl, rfl⟩⟩)⟩
    · exact ⟨(_, some q), (tmTail_iff _ _ _ _ _).mpr (.inr ⟨["stats".toList, verb r.on, r.what.text], q, rfl,
        rfl, (word_iff q).mpr hq, (tm_three _ _).mpr ⟨r, rfl, rfl⟩⟩)⟩
  obtain ⟨x, hx⟩ := hx
  obtain ⟨c, hc⟩ := hb x hx
  obtain ⟨c', e, -⟩ := full_of hc
  obtain ⟨r', p', ha, rfl⟩ := full_asks e
  obtain ⟨rfl, rfl⟩ := asks_unique h ha
  exact e

theorem function_counters (c : Text) : function c What.counters.text
    = some fun s => { s with map := setStatistics s.map (decide (c = "enable".toList)) } := by
  unfold function
  exact if_pos rfl

theorem function_iprofile (c : Text) : function c What.iprofile.text
    = some fun s => { s with pc := decide (c = "enable".toList) } := by
  unfold function
  dsimp only
  rw [if_neg (by decide)]
  exact if_pos rfl

theorem function_mprofile (c : Text) : function c What.mprofile.text
    = some fun s => { s with mem := decide (c = "enable".toList) } := by
  unfold function
  dsimp only
  rw [if_neg (by decide), if_neg (by decide)]
  exact if_pos rfl

theorem function_all (c : Text) : function c What.all.text
    = some fun s => { map := setStatistics s.map (decide (c = "enable".toList)),
                      pc := decide (c = "enable".toList), mem := decide (c = "enable".toList) } := by
  unfold function
  dsimp only
  rw [if_neg (by decide), if_neg (by decide), if_neg (by decide)]
  exact if_pos rfl

theorem function_isSome (c : Text) (x : What) : ∃ f, function c x.text = some f := by
  cases x
  · exact ⟨_, function_counters c⟩
  · exact ⟨_, function_iprofile c⟩
  · exact ⟨_, function_mprofile c⟩
  · exact ⟨_, function_all c⟩

theorem perform_asks {syms : ShellMem.Symbols} {t : Text} {r : Req} {p : Option Text}
    (h : Asks (tokens t) r p) : perform syms t = act syms (verb r.on) r.what.text (p.getD []) := by
  unfold perform
  rw [asks_full h]
  rfl

theorem perform_now {syms : ShellMem.Symbols} {t : Text} {r : Req} (h : Asks (tokens t) r none) :
    perform syms t = .now (verb r.on) r.what.text := by
  obtain ⟨f, hf⟩ := function_isSome (verb r.on) r.what
  rw [perform_asks h, act, hf]
  exact if_pos rfl

theorem perform_at {syms : ShellMem.Symbols} {t q : Text} {r : Req} (h : Asks (tokens t) r (some q)) :
    perform syms t = match ShellMem.getValue syms q 0 with
      | .value a => .later (verb r.on) r.what.text
          (String.ofList (verb r.on ++ ['-'] ++ r.what.text ++ ['-'] ++ q)) a
      | _ => .error := by
  obtain ⟨f, hf⟩ := function_isSome (verb r.on) r.what
  have hq : q ≠ [] := by
    rcases asks_iff.mp h with ⟨e, -⟩ | ⟨q', e, hq, -⟩
    · cases e
    · cases e; exact hq.1
  rw [perform_asks h, act, hf]
  exact if_neg hq

/-- **C135**, the lines: exactly the lines the usage text describes are taken. -/
theorem C135_read (syms : ShellMem.Symbols) (t : Text) :
    perform syms t = .notMine ↔ ∀ r p, ¬ Asks (tokens t) r p := by
  constructor
  · intro h r p ha
    cases p with
    | none => rw [perform_now ha] at h; cases h
    | some q =>
      rw [perform_at ha] at h
      cases e : ShellMem.getValue syms q 0 <;> rw [e] at h <;> cases h
  · intro h
    unfold perform
    cases e : full statsRe t with
    | none => rfl
    | some c =>
      obtain ⟨r, p, ha, -⟩ := full_asks e
      exact absurd ha (h r p)

example : ∃ r p, Asks (tokens "  stats enable   all main ".toList) r p :=
  ⟨⟨true, .all⟩, some "main".toList, .at ⟨true, .all⟩ _ ⟨by decide, by decide⟩⟩

/-! ## What they do -/

variable {w : Nat}
open Spec (Fits Step Run Fresh Calm executed raised)

theorem fits_do {S : Spec.State} {s : St w} (h : Fits S s) (r : Req) :
    Fits (S.do r) { s with sw := apply (verb r.on, r.what.text) s.sw } := by
  have hd : ∀ b : Bool, decide (verb b = "enable".toList) = b := by decide
  have hs : ∀ (b : Bool), (∀ p ∈ setStatistics s.sw.map b, p.2 = b) ∧
      (∃ p ∈ setStatistics s.sw.map b, p.1 = "num_cycles") ∧
      (∃ p ∈ setStatistics s.sw.map b, p.1 = "num_instructions") ∧
      (∀ p ∈ setStatistics s.sw.map b, p.1 ≠ "pc") := by
    intro b
    have e : setStatistics s.sw.map b = s.sw.map.map fun p => (p.1, b) := by
      apply List.map_congr_left
      intro p hp
      rw [if_neg (h.noPc p hp)]
    rw [e]
    refine ⟨?_, ?_, ?_, ?_⟩
    · intro p hp
      obtain ⟨q, -, rfl⟩ := List.mem_map.mp hp
      rfl
    · obtain ⟨p, hp, e⟩ := h.cycles
      exact ⟨_, List.mem_map.mpr ⟨p, hp, rfl⟩, e⟩
    · obtain ⟨p, hp, e⟩ := h.instructions
      exact ⟨_, List.mem_map.mpr ⟨p, hp, rfl⟩, e⟩
    · intro p hp
      obtain ⟨q, hq, rfl⟩ := List.mem_map.mp hp
      exact h.noPc q hq
  obtain ⟨on, what⟩ := r
  obtain ⟨h1, h2, h3, h4⟩ := hs on
  cases what
  · have e : apply (verb on, What.counters.text) s.sw = { s.sw with map := setStatistics s.sw.map on } := by
      simp only [apply, function_counters, hd]
    exact { counters := by rw [e]; exact h1, cycles := by rw [e]; exact h2, instructions := by rw [e]; exact h3,
            noPc := by rw [e]; exact h4, iprofile := by rw [e]; exact h.iprofile,
            mprofile := by rw [e]; exact h.mprofile, plans := h.plans, enabled := h.enabled }
  · have e : apply (verb on, What.iprofile.text) s.sw = { s.sw with pc := on } := by
      simp only [apply, function_iprofile, hd]
    exact { counters := by rw [e]; exact h.counters, cycles := by rw [e]; exact h.cycles,
            instructions := by rw [e]; exact h.instructions,
            noPc := by rw [e]; exact h.noPc, iprofile := by rw [e]; rfl,
            mprofile := by rw [e]; exact h.mprofile, plans := h.plans, enabled := h.enabled }
  · have e : apply (verb on, What.mprofile.text) s.sw = { s.sw with mem := on } := by
      simp only [apply, function_mprofile, hd]
    exact { counters := by rw [e]; exact h.counters, cycles := by rw [e]; exact h.cycles,
            instructions := by rw [e]; exact h.instructions,
            noPc := by rw [e]; exact h.noPc, iprofile := by rw [e]; exact h.iprofile,
            mprofile := by rw [e]; rfl, plans := h.plans, enabled := h.enabled }
  · have e : apply (verb on, What.all.text) s.sw = { map := setStatistics s.sw.map on, pc := on, mem := on } := by
      simp only [apply, function_all, hd]
    exact { counters := by rw [e]; exact h1, cycles := by rw [e]; exact h2, instructions := by rw [e]; exact h3,
            noPc := by rw [e]; exact h4, iprofile := by rw [e]; rfl,
            mprofile := by rw [e]; rfl, plans := h.plans, enabled := h.enabled }

theorem fits_dos {S : Spec.State} {s : St w} (h : Fits S s) (rs : List Req) :
    Fits (rs.foldl Spec.State.do S)
      { s with sw := (rs.map fun r => (verb r.on, r.what.text)).foldl (fun sw x => apply x sw) s.sw } := by
  induction rs generalizing S s with
  | nil => exact h
  | cons r rs ih => exact ih (fits_do h r)

/-- The functions due are those planned. -/
theorem due_planned {S : Spec.State} {s : St w} (h : Fits S s) (pc : BitVec 64) :
    due s pc = (S.planned pc).map fun r => (verb r.on, r.what.text) := by
  have h1 : due s pc = ((s.acts.manager.map (fun x => (x.address, s.fn x.address x.id))).filter
      fun p => decide (p.1 = pc)).map (·.2) := by
    unfold due
    rw [List.filter_map, List.map_map]
    congr 1
    apply List.filter_congr
    intro x hx
    simp [h.enabled x hx]
  rw [h1, h.plans, List.filter_map, List.map_map, Spec.State.planned, List.map_map]
  rfl

theorem isOn_fits {S : Spec.State} {s : St w} (h : Fits S s) {name : String}
    (hn : ∃ p ∈ s.sw.map, p.1 = name) : isOn s.sw name = S.counters := by
  obtain ⟨p, hp, e⟩ := hn
  cases hc : S.counters with
  | true =>
    rw [isOn, List.any_eq_true]
    exact ⟨p, hp, by rw [h.counters p hp, hc]; simp [e]⟩
  | false =>
    rw [isOn, List.any_eq_false]
    intro q hq
    rw [h.counters q hq, hc]; simp

/-- What the counters get after an instruction. -/
theorem count_fits {S : Spec.State} {s : St w} (h : Fits S s) : count s =
    if S.counters then { s with cycles := s.cycles + 1, clint := s.clint.setValue, instrs := s.instrs + 1 }
    else s := by
  have h1 := isOn_fits h h.cycles
  have h2 := isOn_fits h h.instructions
  unfold count
  cases hc : S.counters <;> rw [hc] at h1 h2 <;> simp [h1, h2]

theorem fits_same {S : Spec.State} {s s' : St w} (h : Fits S s) (h1 : s'.sw = s.sw) (h2 : s'.acts = s.acts)
    (h3 : s'.fn = s.fn) : Fits S s' where
  counters := by rw [h1]; exact h.counters
  cycles := by rw [h1]; exact h.cycles
  instructions := by rw [h1]; exact h.instructions
  noPc := by rw [h1]; exact h.noPc
  iprofile := by rw [h1]; exact h.iprofile
  mprofile := by rw [h1]; exact h.mprofile
  plans := by rw [h2, h3]; exact h.plans
  enabled := by rw [h2]; exact h.enabled

theorem instruction_same (s : St w) (exc : Bool) : (instruction s exc).sw = s.sw
    ∧ (instruction s exc).acts = s.acts ∧ (instruction s exc).fn = s.fn
    ∧ (instruction s exc).profile = s.profile := by
  unfold instruction count
  cases exc <;> simp only [Bool.false_eq_true, if_true, if_false] <;> split <;> split <;> exact ⟨rfl, rfl, rfl, rfl⟩

theorem fits_instruction {S : Spec.State} {s : St w} (h : Fits S s) (exc : Bool) :
    Fits S (instruction s exc) :=
  fits_same h (instruction_same s exc).1 (instruction_same s exc).2.1 (instruction_same s exc).2.2.1

theorem fits_execute {S : Spec.State} {s : St w} (h : Fits S s) (pc : BitVec 64) (exc : Bool) :
    Fits ((S.planned pc).foldl Spec.State.do S) (execute s pc exc) := by
  have hd := due_planned h pc
  unfold execute
  split
  · rename_i e
    rw [hd] at e
    have e : S.planned pc = [] := by simpa using e
    rw [e]
    exact fits_instruction h exc
  · rw [hd]
    exact fits_instruction (fits_instruction (fits_dos h (S.planned pc)) false) exc

/-- A value is that of a number or of a symbol. -/
theorem getValue_value {syms : ShellMem.Symbols} {q : Text} {v : BitVec 64} (hq : IsWord q)
    (h : ShellMem.getValue syms q 0 = .value v) :
    (∃ n, ShellMem.Spec.Number 0 q n ∧ n < 2 ^ 64) ∨ ShellMem.lookup syms q = .value v := by
  by_cases hl : ShellMem.lookup syms q = .value v
  · exact .inr hl
  left
  cases q with
  | nil => exact absurd rfl hq.1
  | cons c t =>
    have hp : ShellMem.Plain c := by
      have h1 := hq.2
      simp only [List.all_cons, Bool.and_eq_true] at h1
      have h2 := h1.1
      have h3 : wrd c = true := by
        have := (word_iff [c]).mpr ⟨by simp, by simpa using h2⟩
        simpa [allOf] using this
      simp only [wrd, dig, Bool.or_eq_true, Bool.and_eq_true, decide_eq_true_eq] at h3
      have hn : c.toNat ≠ 32 ∧ ¬ (9 ≤ c.toNat ∧ c.toNat ≤ 13) ∧ c.toNat ≠ 45 ∧ c.toNat ≠ 43 := by
        rcases h3 with ((h | h) | h) | rfl
        · omega
        · omega
        · omega
        · decide
      refine ⟨?_, ?_, ?_⟩
      · unfold Setup.isSpace
        have : ¬ c = ' ' := fun e => hn.1 (by rw [e]; rfl)
        simp only [this, decide_false, Bool.false_or]
        rw [Bool.eq_false_iff]
        intro h
        rw [Bool.and_eq_true, decide_eq_true_eq, decide_eq_true_eq] at h
        exact hn.2.1 h
      · exact fun e => hn.2.2.1 (by rw [e]; rfl)
      · exact fun e => hn.2.2.2 (by rw [e]; rfl)
    obtain ⟨m, b, u, hres, hb, hsu, hN⟩ := ShellMem.resolve_spec 0 (.inl rfl) (c :: t)
    obtain ⟨p, x, n, hpv, hn, -, hd⟩ := Setup.takeDigits_spec hb u
    have hs := ShellMem.strtoull_plain hp hres hpv hn hd
    unfold ShellMem.getValue at h
    rw [hs] at h
    by_cases h0 : p = []
    · rw [if_pos h0] at h; exact absurd h hl
    · rw [if_neg h0] at h
      have hnum := hN p x n hpv h0 hn
      by_cases hlt : n < 2 ^ 64
      · rw [if_pos hlt] at h
        dsimp only at h
        split at h
        · rename_i hge
          have : x = [] := by
            cases x with
            | nil => rfl
            | cons y x =>
              simp only [List.length_cons] at hge
              omega
          subst this
          rw [List.append_nil] at hpv
          subst hpv
          rw [hsu]
          exact ⟨n, hnum, hlt⟩
        · exact absurd h hl
      · rw [if_neg hlt] at h; cases h

theorem unknown_error {syms : ShellMem.Symbols} {q : Text} (hq : IsWord q)
    (h1 : ∀ n, ¬ ShellMem.Spec.Denotes syms 0 q n) (h2 : ∀ f, syms = some f → f q = none) (v : BitVec 64) :
    ShellMem.getValue syms q 0 ≠ .value v := by
  intro h
  rcases getValue_value hq h with ⟨n, hn, hlt⟩ | h
  · exact h1 n (.number hn hlt)
  · unfold ShellMem.lookup at h
    split at h
    · cases h
    · rw [h2 _ rfl] at h
      cases h

/-- One line or instruction. -/
theorem step_fits {syms : ShellMem.Symbols} {S S' : Spec.State} {s : St w} {e : Ev} (h : Fits S s)
    (hs : Step syms S e S')
    (hf : ∀ t id cmd what name a, e = .line t (some id) → perform syms t = .later cmd what name a →
      ∀ x ∈ s.acts.manager, ¬ (x.address = a ∧ x.id = id)) :
    Fits S' (step syms s e) := by
  cases hs with
  | @now t r a ha =>
    unfold step
    simp only [perform_now ha]
    exact fits_do h r
  | @later t r p n id ha hd =>
    have hv := (ShellMem.C110_denotes syms 0 (.inl rfl) p n hd).1
    have hp := perform_at (syms := syms) ha
    rw [hv] at hp
    have hfr := hf t id _ _ _ _ rfl hp
    unfold step
    simp only [hp, ShellAction.step]
    exact { counters := h.counters, cycles := h.cycles, instructions := h.instructions, noPc := h.noPc,
            iprofile := h.iprofile, mprofile := h.mprofile
            plans := by
              simp only [List.map_append, List.map_cons, List.map_nil]
              congr 1
              · rw [← h.plans]
                apply List.map_congr_left
                intro x hx
                rw [if_neg]
                rintro ⟨h1, h2⟩
                exact hfr x hx ⟨h1, Option.some.inj h2⟩
            enabled := by
              intro x hx
              rcases List.mem_append.mp hx with hx | hx
              · exact h.enabled x hx
              · rw [List.mem_singleton.mp hx] }
  | @refused t r p ha =>
    have hp := perform_at (syms := syms) ha
    unfold step
    simp only [hp]
    cases ShellMem.getValue syms p 0
    · exact fits_same h rfl rfl (by funext b i; simp)
    · exact h
    · exact h
    · exact h
  | @unknown t r p a ha h1 h2 =>
    have hp := perform_at (syms := syms) ha
    have hq : IsWord p := by
      rcases asks_iff.mp ha with ⟨e, -⟩ | ⟨q', e, hq, -⟩
      · cases e
      · cases e; exact hq
    have hv := unknown_error hq h1 h2
    unfold step
    simp only [hp]
    cases e : ShellMem.getValue syms p 0 with
    | value v => exact absurd e (hv v)
    | outOfRange => exact h
    | noTable => exact h
    | noSymbol => exact h
  | @other t a ha =>
    unfold step
    simp only [(C135_read syms t).mpr ha]
    exact h
  | @exec pc e => exact fits_execute h pc e

/-- **C135**, sessions: at any time exactly the instrumentation asked for is on, whether asked for at once or
for an address since reached. -/
theorem C135_session {syms : ShellMem.Symbols} {S S' : Spec.State} {s : St w} {es : List Ev} (h : Fits S s)
    (hr : Run syms S es S') (hf : Fresh syms s es) : Fits S' (run syms s es) := by
  induction hr generalizing s with
  | nil => exact h
  | cons hs _ ih => exact ih (step_fits h hs hf.1) hf.2

/-- A core starts with all its counters on. -/
theorem C135_start (opcodes : List String) (pc mem : Bool) (s : St w) (h : s.sw = start opcodes pc mem)
    (ha : s.acts = {}) : Fits ⟨true, pc, mem, []⟩ s := by
  have hn : ∀ p ∈ s.sw.map, p.2 = true ∧ p.1 ≠ "pc" := by
    rw [h]
    intro p hp
    have len : ∀ a b : String, 3 ≤ a.length → a ++ b ≠ "pc" := by
      intro a b hl e
      have := congrArg String.length e
      rw [String.length_append] at this
      have h2 : "pc".length = 2 := rfl
      omega
    simp only [start, List.mem_append, List.mem_map, List.mem_cons, List.not_mem_nil, or_false] at hp
    rcases hp with (⟨i, -, rfl⟩ | rfl | rfl) | ⟨o, -, rfl⟩
    · exact ⟨rfl, len _ _ (by decide)⟩
    · exact ⟨rfl, by decide⟩
    · exact ⟨rfl, by decide⟩
    · exact ⟨rfl, len _ _ (by decide)⟩
  exact { counters := fun p hp => (hn p hp).1
          cycles := ⟨("num_cycles", true), by rw [h]; simp [start], rfl⟩
          instructions := ⟨("num_instructions", true), by rw [h]; simp [start], rfl⟩
          noPc := fun p hp => (hn p hp).2
          iprofile := by rw [h]; rfl
          mprofile := by rw [h]; rfl
          plans := by rw [ha]; rfl
          enabled := by rw [ha]; intro x hx; cases hx }

/-! ## What the program sees -/

theorem cv_succ (hw : w ≤ 64) (c : BitVec 64) : Counter.cv w (c + 1) = Counter.cv w c + 1 := by
  unfold Counter.cv
  rw [BitVec.setWidth_add _ _ hw]
  congr 1
  apply BitVec.eq_of_toNat_eq
  simp only [BitVec.toNat_setWidth, BitVec.toNat_ofNat]
  exact Nat.mod_mod_of_dvd 1 (Nat.pow_dvd_pow 2 hw)

theorem get_exception (x : Counter.Low w) (c : BitVec 64) : (x.onException c).get c = x.get c - 1 := by
  simp only [Counter.Low.onException, Counter.Low.perfSet, Counter.Low.set, Counter.Low.get]
  grind

/-- One instruction: what the CSRs show and the timer, before and after. -/
theorem instruction_counts {S : Spec.State} {s : St w} (hw : w ≤ 64) (h : Fits S s) (exc : Bool) :
    let s' := instruction s exc
    s'.mcycle.get s'.cycles = s.mcycle.get s.cycles + (if S.counters then 1 else 0)
    ∧ s'.minstret.get s'.instrs = s.minstret.get s.instrs + (if S.counters then 1 else 0) - (if exc then 1 else 0)
    ∧ s'.clint = if S.counters then s.clint.setValue else s.clint := by
  have hk : ∀ (x : Counter.Low w) c, x.get (c + 1) = x.get c + 1 := by
    intro x c
    simp only [Counter.Low.get, cv_succ hw]
    grind
  have hF : Fits S (if exc then { s with minstret := s.minstret.onException s.instrs } else s) := by
    cases exc
    · exact h
    · exact fits_same h rfl rfl rfl
  dsimp only
  rw [instruction, count_fits hF]
  cases exc <;> cases S.counters <;> simp only [Bool.false_eq_true, if_true, if_false, hk, get_exception] <;>
    refine ⟨by first | rfl | grind, by first | rfl | grind, by first | rfl | trivial⟩

/-- The function applied a number of times. -/
def times {α : Type} (f : α → α) : Nat → α → α
  | 0, x => x
  | n + 1, x => times f n (f x)

theorem ofNat_step (w n : Nat) : BitVec.ofNat w (n + 1) = BitVec.ofNat w n + 1 := by
  rw [BitVec.ofNat_add]; rfl

/-- In a session in which nothing switches the counters and no plan is carried out, the counters count the
instructions if they are on, and nothing if they are off. -/
theorem counts {syms : ShellMem.Symbols} {S : Spec.State} {s : St w} {es : List Ev} (hw : w ≤ 64) (h : Fits S s)
    (hc : Calm syms S es) (hf : Fresh syms s es) :
    let s' := run syms s es
    let n := if S.counters then executed es else 0
    s'.mcycle.get s'.cycles = s.mcycle.get s.cycles + BitVec.ofNat w n
    ∧ s'.minstret.get s'.instrs = s.minstret.get s.instrs + BitVec.ofNat w n - BitVec.ofNat w (raised es)
    ∧ s'.clint = times Clint.Clint.setValue n s.clint := by
  induction hc generalizing s with
  | nil =>
    dsimp only
    simp only [executed, raised, run, ite_self, times]
    refine ⟨by simp, by simp, trivial⟩
  | @line S S' t a es hs he hc ih =>
    have hF := step_fits h hs hf.1
    have := ih hF hf.2
    have e1 : (step syms s (.line t a)).mcycle = s.mcycle ∧ (step syms s (.line t a)).minstret = s.minstret
        ∧ (step syms s (.line t a)).cycles = s.cycles ∧ (step syms s (.line t a)).instrs = s.instrs
        ∧ (step syms s (.line t a)).clint = s.clint := by
      unfold step
      dsimp only
      cases perform syms t <;> exact ⟨rfl, rfl, rfl, rfl, rfl⟩
    rw [e1.1, e1.2.1, e1.2.2.1, e1.2.2.2.1, e1.2.2.2.2, he] at this
    exact this
  | @exec S pc e es hp hc ih =>
    have hx : execute s pc e = instruction s e := by
      unfold execute
      rw [due_planned h, hp]
      rfl
    have hF : Fits S (instruction s e) := fits_instruction h e
    have hr : run syms s (.exec pc e :: es) = run syms (instruction s e) es := by
      rw [run, step, hx]
    have hf2 := hf.2
    rw [step, hx] at hf2
    obtain ⟨i1, i2, i3⟩ := ih hF hf2
    obtain ⟨j1, j2, j3⟩ := instruction_counts hw h e
    dsimp only
    rw [hr, i1, i2, i3, j1, j2, j3]
    cases S.counters <;> cases e <;>
      simp only [Bool.false_eq_true, if_true, if_false, executed, raised, ofNat_step, times] <;>
      refine ⟨by grind, by grind, trivial⟩

/-- **C135**, transparency, while the counters are on and no plan is carried out: whatever is done to the
profilers, mcycle counts the instructions executed, minstret those that retire, and the timer gets a tick
for each instruction. -/
theorem C135_transparent_partial {syms : ShellMem.Symbols} {S : Spec.State} {s : St w} {es : List Ev}
    (hw : w ≤ 64) (h : Fits S s) (hc : Calm syms S es) (hf : Fresh syms s es) (hon : S.counters = true) :
    let s' := run syms s es
    s'.mcycle.get s'.cycles = s.mcycle.get s.cycles + BitVec.ofNat w (executed es)
    ∧ s'.minstret.get s'.instrs
        = s.minstret.get s.instrs + BitVec.ofNat w (executed es) - BitVec.ofNat w (raised es)
    ∧ s'.clint = times Clint.Clint.setValue (executed es) s.clint := by
  have := counts hw h hc hf
  rw [hon] at this
  exact this

/-- **C135** fails: while the counters are off the program sees mcycle and the timer stand still, and minstret
go back by one for every exception. -/
theorem C135_frozen_violated {syms : ShellMem.Symbols} {S : Spec.State} {s : St w} {es : List Ev}
    (hw : w ≤ 64) (h : Fits S s) (hc : Calm syms S es) (hf : Fresh syms s es) (hoff : S.counters = false) :
    let s' := run syms s es
    s'.mcycle.get s'.cycles = s.mcycle.get s.cycles
    ∧ s'.minstret.get s'.instrs = s.minstret.get s.instrs - BitVec.ofNat w (raised es)
    ∧ s'.clint = s.clint := by
  have := counts hw h hc hf
  rw [hoff] at this
  simpa [times] using this

/-- **C135** fails at the addresses named in a command: with the counters on after the functions have been
called, the one instruction there is counted twice. -/
theorem C135_plan_violated {syms : ShellMem.Symbols} {S : Spec.State} {s : St w} (hw : w ≤ 64) (h : Fits S s)
    (pc : BitVec 64) (exc : Bool) (hp : S.planned pc ≠ [])
    (hon : ((S.planned pc).foldl Spec.State.do S).counters = true) :
    let s' := step syms s (.exec pc exc)
    s'.mcycle.get s'.cycles = s.mcycle.get s.cycles + 2
    ∧ s'.minstret.get s'.instrs = s.minstret.get s.instrs + 2 - (if exc then 1 else 0)
    ∧ s'.clint = s.clint.setValue.setValue := by
  have hd := due_planned h pc
  have hF := fits_dos h (S.planned pc)
  rw [← hd] at hF
  obtain ⟨i1, i2, i3⟩ := instruction_counts hw hF false
  obtain ⟨j1, j2, j3⟩ := instruction_counts hw (fits_instruction hF false) exc
  have hx : step syms s (.exec pc exc) = instruction (instruction
      { s with sw := (due s pc).foldl (fun sw x => apply x sw) s.sw } false) exc := by
    rw [step, execute, if_neg]
    rw [hd]
    simpa using hp
  dsimp only
  rw [hx, j1, j2, j3, i1, i2, i3, hon]
  cases exc <;> simp only [Bool.false_eq_true, if_true, if_false] <;>
    refine ⟨by grind, by grind, trivial⟩

/-- **C135** fails for `iprofile`: the instruction profiler is told of no instruction, on or off. -/
theorem C135_profile_violated (syms : ShellMem.Symbols) (s : St w) (es : List Ev) :
    (run syms s es).profile = s.profile := by
  induction es generalizing s with
  | nil => rfl
  | cons e es ih =>
    rw [run, ih]
    cases e with
    | line t a =>
      unfold step
      dsimp only
      cases perform syms t <;> rfl
    | exec pc exc =>
      rw [step, execute]
      split
      · exact (instruction_same s exc).2.2.2
      · rw [(instruction_same _ exc).2.2.2, (instruction_same _ false).2.2.2]

/-! ## Examples -/

/-- A core at its start. -/
def fresh : St 64 :=
  { sw := start ["addi"] true false, acts := {}, fn := fun _ _ => ([], []), cycles := 0, instrs := 0,
    mcycle := ⟨0⟩, minstret := ⟨0⟩, clint := Clint.Clint.init 100, profile := [] }

theorem fresh_fits : Fits ⟨true, true, false, []⟩ fresh := C135_start ["addi"] true false fresh rfl rfl

/-- `stats disable counters`, then two instructions, the second with an exception. -/
def quiet : List Ev := [.exec 4 false, .exec 8 true]

theorem off_fits : Fits ⟨false, true, false, []⟩ (step none fresh (.line "stats disable counters".toList none)) :=
  step_fits fresh_fits (.now (t := "stats disable counters".toList) (.now ⟨false, .counters⟩)) (by intro t id cmd what name a e; cases e)

example : let s := run none (step none fresh (.line "stats disable counters".toList none)) quiet
    s.mcycle.get s.cycles = 0 ∧ s.minstret.get s.instrs = -1#64 := by
  have hc : Calm none ⟨false, true, false, []⟩ quiet := .exec rfl (.exec rfl .nil)
  have hf : Fresh none (step none fresh (.line "stats disable counters".toList none)) quiet :=
    ⟨fun _ _ _ _ _ _ e => (nomatch e), fun _ _ _ _ _ _ e => (nomatch e), trivial⟩
  obtain ⟨h1, h2, -⟩ := C135_frozen_violated (by decide) off_fits hc hf rfl
  have e1 : (step none fresh (.line "stats disable counters".toList none)).mcycle.get
      (step none fresh (.line "stats disable counters".toList none)).cycles = 0#64 := by
    unfold step
    simp only [perform_now (syms := none) (t := "stats disable counters".toList) (.now ⟨false, .counters⟩)]
    rfl
  have e2 : (step none fresh (.line "stats disable counters".toList none)).minstret.get
      (step none fresh (.line "stats disable counters".toList none)).instrs = 0#64 := by
    unfold step
    simp only [perform_now (syms := none) (t := "stats disable counters".toList) (.now ⟨false, .counters⟩)]
    rfl
  rw [e1] at h1
  rw [e2] at h2
  exact ⟨h1, h2⟩

/-- A plan for address 16, carried out there. -/
example : Run none ⟨true, true, false, []⟩
    [.line "stats disable all 0x10".toList (some 0), .exec 4 false, .exec 16 false]
    ⟨false, false, false, [(16, ⟨false, .all⟩)]⟩ :=
  .cons (.later (p := "0x10".toList) (n := 16) (.at ⟨false, .all⟩ _ ⟨by decide, by decide⟩)
    (.number (.hex (.inl rfl) (by decide) (.cons (d := 1) (Or.inl rfl) (by decide)
      (.cons (d := 0) (Or.inl rfl) (by decide) .nil))) (by decide)))
    (.cons .exec (.cons .exec .nil))

end Verif.Stats
