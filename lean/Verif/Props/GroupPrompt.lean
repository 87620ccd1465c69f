import Verif.Props.GroupSession
import Verif.Spec.GroupTalk
/-!
# C160: the prompts of a group quiz
-/
namespace KT
open Spec

theorem mem_erase' (cs : Choices) (c : UInt8) (x : UInt8 × Str) : x ∈ cs.erase c ↔ x ∈ cs ∧ x.1 ≠ c := by
  simp [Choices.erase]

theorem mem_assign (cs : Choices) (c : UInt8) (d : Str) (x : UInt8 × Str) :
    x ∈ cs.assign c d ↔ x = (c, d) ∨ (x ∈ cs ∧ x.1 ≠ c) := by
  rw [Choices.assign, insert_mem, mem_erase']

theorem choices_nodup {cs : Choices} (h : cs.Sorted) : cs.Nodup :=
  List.Pairwise.imp (R := fun a b : UInt8 × Str => a.1 < b.1)
    (fun {a b} (hab : a.1 < b.1) (he : a = b) => by rw [he] at hab; exact UInt8.lt_irrefl _ hab) h

theorem sorted_ext {a b : Choices} (ha : a.Sorted) (hb : b.Sorted) (h : ∀ x, x ∈ a ↔ x ∈ b) : a = b :=
  List.Perm.eq_of_pairwise (le := fun a b : UInt8 × Str => a.1 < b.1)
    (fun _ _ _ _ h1 h2 => (UInt8.lt_asymm h2 h1).elim) ha hb
    ((List.perm_ext_iff_of_nodup (choices_nodup ha) (choices_nodup hb)).2 h)

theorem sorted_unique {cs : Choices} (h : cs.Sorted) {x y : UInt8 × Str} (hx : x ∈ cs) (hy : y ∈ cs) (he : x.1 = y.1) :
    x = y := by
  induction cs with
  | nil => cases hx
  | cons a r ih =>
    obtain ⟨h1, h2⟩ := List.pairwise_cons.1 h
    rcases List.mem_cons.1 hx with rfl | hx' <;> rcases List.mem_cons.1 hy with rfl | hy'
    · rfl
    · have := h1 y hy'; rw [he] at this; exact absurd this (UInt8.lt_irrefl _)
    · have := h1 x hx'; rw [he] at this; exact absurd this (UInt8.lt_irrefl _)
    · exact ih h2 hx' hy'

/-- The choices are those of the specification. -/
structure Offers (quizMode first last : Bool) (count : Nat) (p : GroupPlay) : Prop where
  sorted : p.choices.Sorted
  mem : ∀ x, x ∈ p.choices ↔
    (x.2 = [] ∧ x.1 ∈ lettersFor quizMode count ∧ x.1 ∉ p.answers) ∨
      x ∈ groupExtras quizMode first last p.shown (p.answers ≠ [])

theorem sortedLetters_mem (count : Nat) (h : count ≤ 58) (c : UInt8) : c ∈ sortedLetters count ↔ c ∈ lettersFor true count := by
  simp only [sortedLetters, lettersFor, if_true, List.mem_append, List.mem_map, List.mem_range, groupLetter]
  constructor
  · rintro (⟨i, hi, rfl⟩ | ⟨i, hi, rfl⟩)
    · exact ⟨26 + i, by omega, by rw [if_neg (by omega)]; congr 1; omega⟩
    · exact ⟨i, by omega, by rw [if_pos (by omega)]⟩
  · rintro ⟨i, hi, rfl⟩
    by_cases h26 : i < 26
    · exact .inr ⟨i, by omega, by rw [if_pos h26]⟩
    · exact .inl ⟨i - 26, by omega, by rw [if_neg h26]; congr 1; omega⟩

theorem sortedLetters_sorted : ∀ count ≤ 58, (0x2f :: sortedLetters count).Pairwise (· < ·) := by decide +kernel

theorem extras_sorted : ∀ quizMode first last shown answered : Bool,
    ((groupExtras quizMode first last shown answered).map (·.1)).Pairwise (· < ·) ∧
      ∀ x ∈ groupExtras quizMode first last shown answered, x.1 < 0x2f := by decide +kernel

theorem groupOffered_sorted (quizMode first last shown : Bool) (count : Nat) (h : count ≤ 58) (answers : List UInt8) :
    Choices.Sorted (groupOffered quizMode first last shown count answers) := by
  obtain ⟨h1, h2⟩ := extras_sorted quizMode first last shown (answers ≠ [])
  have h3 := sortedLetters_sorted count h
  rw [List.pairwise_cons] at h3
  unfold groupOffered
  rw [List.append_assoc]
  refine List.pairwise_append.2 ⟨List.pairwise_map.1 h1, ?_, ?_⟩
  · rw [List.singleton_append, List.pairwise_cons]
    cases quizMode with
    | false => simp
    | true =>
      simp only [if_true, List.mem_map, List.mem_filter]
      refine ⟨?_, List.pairwise_map.2 (List.Pairwise.filter _ h3.2)⟩
      rintro x ⟨c, ⟨hc, _⟩, rfl⟩
      exact h3.1 c hc
  · intro a ha b hb
    have ha' := h2 a ha
    rcases List.mem_cons.1 hb with rfl | hb
    · exact ha'
    · cases quizMode with
      | false => cases hb
      | true =>
        rw [if_pos rfl] at hb
        obtain ⟨c, hc, rfl⟩ := List.mem_map.1 hb
        exact UInt8.lt_trans ha' (h3.1 c (List.mem_filter.1 hc).1)

/-- With these choices the prompt offers what is specified. -/
theorem Offers.offered {quizMode first last : Bool} {count : Nat} {p : GroupPlay} (h58 : count ≤ 58)
    (h : Offers quizMode first last count p) :
    offered quizQuit true p.choices = groupOffered quizMode first last p.shown count p.answers := by
  have e : KT.offered quizQuit true p.choices = p.choices.insert 0x2f (u8!"quit") := rfl
  have hext := extras_sorted quizMode first last p.shown (p.answers ≠ [])
  have hL := lettersFor_ok quizMode count h58
  have hno : p.choices.has 0x2f = false := by
    cases hh : p.choices.has 0x2f with
    | false => rfl
    | true =>
      obtain ⟨d, hd⟩ := (has_iff _ _).1 hh
      rcases (h.mem _).1 hd with ⟨-, h1, -⟩ | h1
      · exact absurd h1 hL.quit
      · exact absurd (hext.2 _ h1) (UInt8.lt_irrefl _)
  rw [e]
  refine sorted_ext (insert_sorted h.sorted _ hno) (groupOffered_sorted _ _ _ _ _ h58 _) fun x => ?_
  rw [insert_mem, h.mem]
  unfold groupOffered
  simp only [List.mem_append, List.mem_singleton]
  have hlet : (x.2 = [] ∧ x.1 ∈ lettersFor quizMode count ∧ x.1 ∉ p.answers) ↔
      x ∈ (if quizMode then ((sortedLetters count).filter fun c => !p.answers.contains c).map fun c => (c, ([] : Str)) else []) := by
    cases quizMode with
    | false => simp [lettersFor]
    | true =>
      simp only [if_true, List.mem_map, List.mem_filter, sortedLetters_mem count h58]
      constructor
      · rintro ⟨h1, h2, h3⟩
        exact ⟨x.1, ⟨h2, by simpa using h3⟩, by rw [← h1]⟩
      · rintro ⟨c, ⟨h1, h2⟩, rfl⟩
        exact ⟨rfl, h1, by simpa using h2⟩
  rw [hlet]
  constructor
  · rintro (h | h | h)
    · exact .inl (.inr h)
    · exact .inr h
    · exact .inl (.inl h)
  · rintro ((h | h) | h)
    · exact .inr (.inr h)
    · exact .inl h
    · exact .inr (.inl h)

theorem extras_options : ∀ quizMode first last shown answered : Bool,
    ∀ x ∈ groupExtras quizMode first last shown answered,
      x.1 = meaningsOption ∨ x.1 = skipOption ∨ x.1 = editOption ∨ x.1 = refreshOption ∨ x.1 = prevOption := by
  decide +kernel

theorem Offers.keys {quizMode first last : Bool} {count : Nat} {p : GroupPlay} (h : Offers quizMode first last count p)
    {c : UInt8} (hc : p.choices.has c = true) :
    (c ∈ lettersFor quizMode count ∧ c ∉ p.answers) ∨ isChoiceOption c := by
  obtain ⟨d, hd⟩ := (has_iff _ _).1 hc
  rcases (h.mem _).1 hd with ⟨-, h1, h2⟩ | h1
  · exact .inl ⟨h1, h2⟩
  · exact .inr (extras_options _ _ _ _ _ _ h1)

/-- The choices at the start of a question. -/
theorem offers_start (quizMode shown : Bool) (current : UInt16) (total count : Nat) (h58 : count ≤ 58) :
    Offers quizMode (current == 0) (decide (current.toNat + 1 = total)) count
      ⟨[], addLetters quizMode count (quizChoices quizMode current total shown), shown⟩ := by
  refine ⟨(rel_start quizMode shown current total count).sorted, fun x => ?_⟩
  have hq : ∀ x, x ∈ quizChoices quizMode current total shown ↔
      x ∈ groupExtras quizMode (current == 0) (decide (current.toNat + 1 = total)) shown false := by
    have : quizChoices quizMode current total shown =
        groupExtras quizMode (current == 0) (decide (current.toNat + 1 = total)) shown false := by
      rw [quizChoices_of]
      generalize (current == 0) = first
      generalize decide (current.toNat + 1 = total) = last
      revert quizMode shown first last
      decide +kernel
    rw [this]; simp
  have hL := lettersFor_ok quizMode count h58
  show x ∈ addLetters quizMode count (quizChoices quizMode current total shown) ↔
    (x.2 = [] ∧ x.1 ∈ lettersFor quizMode count ∧ x.1 ∉ ([] : List UInt8)) ∨
      x ∈ groupExtras quizMode (current == 0) (decide (current.toNat + 1 = total)) shown (decide (([] : List UInt8) ≠ []))
  rw [show decide (([] : List UInt8) ≠ []) = false from rfl, ← hq x]
  cases quizMode with
  | false => simp [addLetters, lettersFor]
  | true =>
    simp only [addLetters, if_true]
    have gen : ∀ (l : List Nat) (cs : Choices), (∀ i ∈ l, cs.has (groupLetter i) = true → (groupLetter i, []) ∈ cs) → cs.Sorted →
        (x ∈ l.foldl (fun cs i => cs.assign (groupLetter i) []) cs ↔
          x ∈ cs ∨ (x.2 = [] ∧ x.1 ∈ l.map groupLetter)) := by
      intro l
      induction l with
      | nil => intro cs _ _; simp
      | cons i l ih =>
        intro cs h hs
        have hi : ∀ y, y ∈ cs.assign (groupLetter i) [] ↔ y = (groupLetter i, []) ∨ y ∈ cs := by
          intro y
          rw [mem_assign]
          constructor
          · rintro (h1 | ⟨h1, -⟩)
            · exact .inl h1
            · exact .inr h1
          · rintro (h1 | h1)
            · exact .inl h1
            · by_cases hy : y.1 = groupLetter i
              · left
                have hm := h i (by simp) ((has_iff _ _).2 ⟨y.2, by rw [← hy]; exact h1⟩)
                exact sorted_unique hs h1 hm hy
              · exact .inr ⟨h1, hy⟩
        rw [List.foldl_cons, ih _ ?_ (assign_sorted hs _ _), hi]
        · simp only [List.map_cons, List.mem_cons]
          constructor
          · rintro ((h1 | h1) | h1)
            · exact .inr ⟨by rw [h1], .inl (by rw [h1])⟩
            · exact .inl h1
            · exact .inr ⟨h1.1, .inr h1.2⟩
          · rintro (h1 | ⟨h1, h2 | h2⟩)
            · exact .inl (.inr h1)
            · exact .inl (.inl (Prod.ext h2 h1))
            · exact .inr ⟨h1, h2⟩
        · intro j hj hh
          rw [hi]
          rcases (assign_has _ _ _ _).1 hh with h1 | h1
          · exact .inl (by rw [h1])
          · exact .inr (h j (by simp [hj]) h1)
    rw [gen]
    · simp only [lettersFor, if_true, List.not_mem_nil, not_false_eq_true, and_true]
      exact Or.comm
    · intro i hi hh
      obtain ⟨d, hd⟩ := (has_iff _ _).1 hh
      have := extras_options _ _ _ _ _ _ ((hq _).1 hd)
      exact absurd this (hL.opts _ (by
        simp only [lettersFor, if_true, List.mem_map]; exact ⟨i, hi, rfl⟩))
    · have := (rel_start true shown current total 0).sorted
      exact this

/-! ## The choices after each answer -/

/-- The choices and the answers of a question. -/
structure Asking (quizMode first last : Bool) (count : Nat) (p : GroupPlay) : Prop where
  offers : Offers quizMode first last count p
  nodup : p.answers.Nodup
  letters : ∀ a ∈ p.answers, a ∈ lettersFor quizMode count

theorem extras_shown (quizMode first last shown answered : Bool) (x : UInt8 × Str) :
    x ∈ groupExtras quizMode first last (!shown) answered ↔
      x = (0x2d, meaningsText (!shown)) ∨ (x ∈ groupExtras quizMode first last shown answered ∧ x.1 ≠ 0x2d) := by
  obtain ⟨c, d⟩ := x
  cases quizMode <;> cases first <;> cases last <;> cases shown <;> cases answered <;>
    simp [groupExtras, meaningsText] <;> grind

theorem extras_answered (quizMode first last shown : Bool) (x : UInt8 × Str) :
    x ∈ groupExtras quizMode first last shown true ↔
      x = (0x27, u8!"refresh") ∨ x = (0x2a, u8!"edit") ∨ x ∈ groupExtras quizMode first last shown false := by
  simp [groupExtras]

theorem extras_unanswered : ∀ quizMode first last shown : Bool, ∀ x ∈ groupExtras quizMode first last shown false,
    x.1 ≠ 0x27 ∧ x.1 ≠ 0x2a := by decide +kernel

theorem Asking.toggle {quizMode first last : Bool} {count : Nat} (h58 : count ≤ 58) {p : GroupPlay}
    (h : Asking quizMode first last count p) : Asking quizMode first last count
      { p with choices := p.choices.assign 0x2d (meaningsText (!p.shown)), shown := !p.shown } := by
  refine ⟨⟨assign_sorted h.offers.sorted _ _, fun x => ?_⟩, h.nodup, h.letters⟩
  have hL := lettersFor_ok quizMode count h58
  have hm : meaningsOption ∉ lettersFor quizMode count := fun hx => hL.opts _ hx (by simp [isChoiceOption])
  simp only [mem_assign, h.offers.mem, extras_shown]
  have : x.1 ∈ lettersFor quizMode count → x.1 ≠ 0x2d := fun h1 h2 => hm (show (0x2d : UInt8) ∈ _ from h2 ▸ h1)
  grind

theorem Asking.answered {quizMode first last : Bool} {count : Nat} (h58 : count ≤ 58) {p : GroupPlay}
    (h : Asking quizMode first last count p) {a : UInt8} (ha : a ∈ lettersFor quizMode count) (hn : a ∉ p.answers) :
    Asking quizMode first last count (p.answered a) := by
  have hL := lettersFor_ok quizMode count h58
  have hs : (p.answered a).choices.Sorted := by
    show Choices.Sorted (if (p.answers ++ [a]).length = 1 then _ else _)
    split
    · exact assign_sorted (assign_sorted (erase_sorted h.offers.sorted _) _ _) _ _
    · exact erase_sorted h.offers.sorted _
  refine ⟨⟨hs, fun x => ?_⟩, ?_, ?_⟩
  · show x ∈ (if (p.answers ++ [a]).length = 1 then _ else _) ↔ _
    have hx : ∀ answered, x ∈ groupExtras quizMode first last p.shown answered → x.1 ∉ lettersFor quizMode count :=
      fun _ h1 h2 => hL.opts _ h2 (extras_options _ _ _ _ _ _ h1)
    have e1 : (0x27 : UInt8) ∉ lettersFor quizMode count :=
      fun h1 => hL.opts _ h1 (.inr (.inr (.inr (.inl rfl))))
    have e2 : (0x2a : UInt8) ∉ lettersFor quizMode count :=
      fun h1 => hL.opts _ h1 (.inr (.inr (.inl rfl)))
    have hans : (p.answered a).answers = p.answers ++ [a] := rfl
    have hsh : (p.answered a).shown = p.shown := rfl
    rw [hans, hsh]
    have hd : decide (p.answers ++ [a] ≠ []) = true := by simp
    rw [hd]
    by_cases hl : (p.answers ++ [a]).length = 1
    · have h0 : p.answers = [] := by
        simp only [List.length_append, List.length_singleton, Nat.add_eq_right, List.length_eq_zero_iff] at hl
        exact hl
      rw [if_pos hl]
      simp only [mem_assign, mem_erase', h.offers.mem, h0]
      have hd' : decide (([] : List UInt8) ≠ []) = false := rfl
      rw [hd', extras_answered]
      have hf := extras_unanswered quizMode first last p.shown x
      have hx := hx false
      simp only [List.mem_singleton, List.not_mem_nil, not_false_eq_true, and_true, List.nil_append]
      grind
    · have h0 : decide (p.answers ≠ []) = true := by
        cases hp : p.answers with
        | nil => rw [hp] at hl; exact absurd rfl hl
        | cons y z => rfl
      rw [if_neg hl]
      simp only [mem_erase', h.offers.mem, h0]
      have hx := hx true
      simp only [List.mem_append, List.mem_singleton]
      grind
  · show (p.answers ++ [a]).Nodup
    simp only [List.nodup_append, List.nodup_cons, List.mem_singleton]
    refine ⟨h.nodup, by simp, ?_⟩
    rintro b hb c rfl rfl
    exact hn hb
  · intro b hb
    rcases List.mem_append.1 hb with hb | hb
    · exact h.letters b hb
    · rw [List.mem_singleton.1 hb]; exact ha

theorem andThen_ok {α β : Type} {r : GRun α} {f : α → GroupPlay → InStream → GRun β} {text : Str}
    {x : β × GroupPlay × InStream} (h : r.andThen f = .ok (text, some x)) :
    ∃ t1 a p s t2, r = .ok (t1, some (a, p, s)) ∧ f a p s = .ok (t2, some x) ∧ text = t1 ++ t2 := by
  unfold GRun.andThen at h
  obtain ⟨⟨t1, o⟩, h1, h2⟩ := Res.bind_eq_ok h
  cases o with
  | none => simp at h2
  | some y =>
    obtain ⟨a, p, s⟩ := y
    obtain ⟨⟨t2, o2⟩, h3, h4⟩ := Res.bind_eq_ok h2
    simp only [Res.ok.injEq, Prod.mk.injEq] at h4
    exact ⟨t1, a, p, s, t2, h1, by rw [h3, ← h4.2], h4.1.symm⟩

theorem after_ok {α : Type} {t text : Str} {r : GRun α} {x : α × GroupPlay × InStream}
    (h : r.after t = .ok (text, some x)) : ∃ t2, r = .ok (t2, some x) ∧ text = t ++ t2 := by
  unfold GRun.after at h
  obtain ⟨⟨t2, o⟩, h1, h2⟩ := Res.bind_eq_ok h
  simp only [Res.ok.injEq, Prod.mk.injEq] at h2
  exact ⟨t2, by rw [h1, ← h2.2], h2.1.symm⟩

theorem done_ok {α : Type} {a b : α} {p p' : GroupPlay} {s s' : InStream} {text : Str}
    (h : GRun.done a p s = .ok (text, some (b, p', s'))) : b = a ∧ p' = p := by
  simp only [GRun.done, Res.ok.injEq, Prod.mk.injEq, Option.some.injEq] at h
  exact ⟨h.2.1.symm, h.2.2.1.symm⟩

theorem groupAsk_ok {n : Nat} {msg : Str} {cs : Choices} {dflt : Option UInt8} {useQuit : Bool} {p p' : GroupPlay}
    {s s' : InStream} {text : Str} {c : UInt8} (hs : cs.Sorted) (ha : Acceptable quizQuit useQuit cs dflt)
    (h : groupAsk n msg cs dflt useQuit p s = .ok (text, some (c, p', s'))) :
    p' = p ∧ (offered quizQuit useQuit cs).has c = true := by
  unfold groupAsk at h
  rw [C72_prompt quizQuit msg useQuit cs dflt hs ha] at h
  simp only [Res.bind] at h
  cases hask : Choice.ask (promptText msg (offered quizQuit useQuit cs) dflt) (offered quizQuit useQuit cs) dflt n s [] with
  | mk t o =>
    rw [hask] at h
    cases o with
    | none => simp at h
    | some x =>
      obtain ⟨c1, s1⟩ := x
      simp only [Res.ok.injEq, Prod.mk.injEq, Option.some.injEq] at h
      obtain ⟨-, rfl, rfl, -⟩ := h
      exact ⟨rfl, ask_key ha.hasDflt hask⟩

theorem Asking.acceptable {quizMode first last : Bool} {count : Nat} (h58 : count ≤ 58) {p : GroupPlay}
    (h : Asking quizMode first last count p) : Acceptable quizQuit true p.choices none :=
  acceptable_of (lettersFor_ok quizMode count h58) (letters_print quizMode count h58)
    (fun c hc => by
      rcases h.offers.keys hc with ⟨h1, _⟩ | h1
      · exact .inl h1
      · exact .inr h1) (.inl rfl) (by intro d hd; cases hd)

/-- What is offered for the new reading of the question at this position. -/
theorem new_choices {quizMode first last : Bool} {count : Nat} (h58 : count ≤ 58) {p : GroupPlay}
    (h : Asking quizMode first last count p) (hq : quizMode = true) {e : Nat} {old : UInt8} (ho : p.answers[e]? = some old) :
    ((((p.choices.assign old []).erase 0x2a).erase 0x2d).erase 0x27).erase 0x2e =
      ((sortedLetters count).filter fun c => c == old || !p.answers.contains c).map fun c => (c, ([] : Str)) := by
  subst hq
  have hL := lettersFor_ok true count h58
  have hmem : old ∈ p.answers := List.mem_of_getElem? ho
  have hol : old ∈ lettersFor true count := h.letters _ hmem
  refine sorted_ext (erase_sorted (erase_sorted (erase_sorted (erase_sorted (assign_sorted h.offers.sorted _ _) _) _) _) _)
    ?_ fun x => ?_
  · have h3 := sortedLetters_sorted count h58
    rw [List.pairwise_cons] at h3
    exact List.pairwise_map.2 (List.Pairwise.filter _ h3.2)
  · simp only [mem_erase', mem_assign, h.offers.mem, List.mem_map, List.mem_filter, sortedLetters_mem count h58]
    have hopt : ∀ c ∈ lettersFor true count, c ≠ 0x2a ∧ c ≠ 0x2d ∧ c ≠ 0x27 ∧ c ≠ 0x2e := by
      intro c hc
      have := hL.opts c hc
      simp only [isChoiceOption, not_or] at this
      exact ⟨this.2.2.1, this.1, this.2.2.2.1, this.2.1⟩
    have hext : x ∈ groupExtras true first last p.shown (decide (p.answers ≠ [])) →
        x.1 = 0x2d ∨ x.1 = 0x2e ∨ x.1 = 0x2a ∨ x.1 = 0x27 := by
      have : ∀ first last shown answered : Bool, ∀ x ∈ groupExtras true first last shown answered,
        x.1 = 0x2d ∨ x.1 = 0x2e ∨ x.1 = 0x2a ∨ x.1 = 0x27 := by decide +kernel
      exact this _ _ _ _ _
    constructor
    · rintro ⟨⟨⟨⟨h1, n1⟩, n2⟩, n3⟩, n4⟩
      rcases h1 with h1 | ⟨h1 | h1, n5⟩
      · exact ⟨old, ⟨hol, by simp⟩, h1.symm⟩
      · exact ⟨x.1, ⟨h1.2.1, by simp [h1.2.2]⟩, by rw [← h1.1]⟩
      · rcases hext h1 with h2 | h2 | h2 | h2 <;> contradiction
    · rintro ⟨c, ⟨h1, h2⟩, rfl⟩
      obtain ⟨n1, n2, n3, n4⟩ := hopt c h1
      refine ⟨⟨⟨⟨?_, n1⟩, n2⟩, n3⟩, n4⟩
      by_cases hc : c = old
      · exact .inl (by rw [hc])
      · refine .inr ⟨.inl ⟨rfl, h1, ?_⟩, hc⟩
        simpa [hc] using h2

theorem Asking.isQuiz {quizMode first last : Bool} {count : Nat} {p : GroupPlay}
    (h : Asking quizMode first last count p) (hne : p.answers ≠ []) : quizMode = true := by
  cases quizMode with
  | true => rfl
  | false =>
    obtain ⟨a, ha⟩ := List.exists_mem_of_ne_nil _ hne
    exact absurd (h.letters a ha) (by simp [lettersFor])

theorem Asking.toEdit {quizMode first last : Bool} {count : Nat} (h58 : count ≤ 58) {p : GroupPlay}
    (h : Asking quizMode first last count p) (hne : p.answers ≠ []) {n : Nat} {s s' : InStream} {text : Str}
    {e : Nat} {p' : GroupPlay} (h1 : askAnswerToEdit n p s = .ok (text, some (e, p', s'))) : p' = p := by
  unfold askAnswerToEdit at h1
  split at h1
  · exact (done_ok h1).2
  · obtain ⟨t3, c, p2, s2, t4, h3, h4, -⟩ := andThen_ok h1
    obtain ⟨a, ha⟩ := List.exists_mem_of_ne_nil _ hne
    obtain ⟨k1, k2⟩ := answerChoices_ok p.answers
    obtain ⟨e3, -⟩ := groupAsk_ok k1 (acceptable_of (lettersFor_ok quizMode count h58) (letters_print quizMode count h58)
      (fun c hc => .inl (h.letters c ((k2 c).1 hc))) (.inr ⟨a, (k2 a).2 ha⟩) (by intro d hd; cases hd)) h3
    revert h4
    cases p2.answers.findIdx? (· == c) with
    | none => intro h4; cases h4
    | some j => intro h4; rw [(done_ok h4).2, e3]

theorem Asking.edit {quizMode first last : Bool} {count : Nat} (h58 : count ≤ 58) {p : GroupPlay}
    (h : Asking quizMode first last count p) (hne : p.answers ≠ []) {n : Nat} {s s' : InStream} {text : Str}
    {u : Unit} {p' : GroupPlay} (he : askEdit n p s = .ok (text, some (u, p', s'))) :
    Asking quizMode first last count p' ∧ p'.answers ≠ [] ∧ p'.shown = p.shown := by
  have hq := h.isQuiz hne
  have hL := lettersFor_ok quizMode count h58
  have hP := letters_print quizMode count h58
  unfold askEdit at he
  obtain ⟨t1, e, p1, s1, t2, h1, h2, -⟩ := andThen_ok he
  have hp1 : p1 = p := h.toEdit h58 hne h1
  subst hp1
  revert h2
  cases ho : p1.answers[e]? with
  | none => intro h2; cases h2
  | some old =>
    intro h2
    simp only at h2
    rw [new_choices h58 h hq ho] at h2
    obtain ⟨t3, c, p2, s2, t4, h3, h4, -⟩ := andThen_ok h2
    have hmem : old ∈ p1.answers := List.mem_of_getElem? ho
    have hkey : ∀ c, Choices.has (((sortedLetters count).filter fun c => c == old || !p1.answers.contains c).map
        fun c => (c, ([] : Str))) c = true ↔ c ∈ lettersFor quizMode count ∧ (c = old ∨ c ∉ p1.answers) := by
      intro c
      subst hq
      rw [has_keys, List.map_map]
      simp only [List.mem_map, List.mem_filter, Function.comp, exists_eq_right, sortedLetters_mem count h58]
      simp
    have hsort : Choices.Sorted (((sortedLetters count).filter fun c => c == old || !p1.answers.contains c).map
        fun c => (c, ([] : Str))) := by
      have h3 := sortedLetters_sorted count h58
      rw [List.pairwise_cons] at h3
      exact List.pairwise_map.2 (List.Pairwise.filter _ h3.2)
    obtain ⟨e3, hc⟩ := groupAsk_ok hsort (acceptable_of hL hP
      (fun c hc => .inl ((hkey c).1 hc).1) (.inr ⟨old, (hkey old).2 ⟨h.letters _ hmem, .inl rfl⟩⟩)
      (by intro d hd; cases hd; exact (hkey old).2 ⟨h.letters _ hmem, .inl rfl⟩)) h3
    have hc' : c ∈ lettersFor quizMode count ∧ (c = old ∨ c ∉ p1.answers) := by
      rcases offered_keys hc with h5 | ⟨h5, -⟩
      · exact (hkey c).1 h5
      · cases h5
    obtain ⟨-, rfl⟩ := done_ok h4
    subst e3
    obtain ⟨hlt, hget⟩ := List.getElem?_eq_some_iff.1 ho
    refine ⟨⟨⟨erase_sorted (assign_sorted h.offers.sorted _ _) _, fun x => ?_⟩, ?_, ?_⟩, ?_, rfl⟩
    · show x ∈ (p1.choices.assign old []).erase c ↔
        (x.2 = [] ∧ x.1 ∈ lettersFor quizMode count ∧ x.1 ∉ p1.answers.set e c) ∨
          x ∈ groupExtras quizMode first last p1.shown (decide (p1.answers.set e c ≠ []))
      have hd : decide (p1.answers.set e c ≠ []) = decide (p1.answers ≠ []) := by simp
      rw [hd]
      have hx : x ∈ groupExtras quizMode first last p1.shown (decide (p1.answers ≠ [])) → x.1 ∉ lettersFor quizMode count :=
        fun h1 h2 => hL.opts _ h2 (extras_options _ _ _ _ _ _ h1)
      have hol := h.letters _ hmem
      simp only [mem_erase', mem_assign, h.offers.mem, mem_set_iff h.nodup e hlt c x.1, hget]
      have hx0 : x = (old, []) ↔ x.1 = old ∧ x.2 = [] := by
        constructor
        · rintro rfl; exact ⟨rfl, rfl⟩
        · rintro ⟨h1, h2⟩; exact Prod.ext h1 h2
      rw [hx0]
      grind
    · exact nodup_set h.nodup e hlt c (by rcases hc'.2 with h5 | h5
                                          · exact .inr (h5.trans hget.symm)
                                          · exact .inl h5)
    · intro a ha
      rcases (mem_set_iff h.nodup e hlt c a).1 ha with h5 | h5
      · rw [h5]; exact hc'.1
      · exact h.letters a h5.1
    · intro h0
      have : (p1.answers.set e c).length = 0 := by
        have h0' : p1.answers.set e c = [] := h0
        rw [h0']; rfl
      rw [List.length_set] at this
      exact hne (List.length_eq_zero_iff.1 this)

/-! ## C160 -/

/-- What is kept of a run. -/
def GRun.view {α γ : Type} (v : α → GroupPlay → γ) (r : GRun α) : Res (Talk γ) :=
  r.bind fun x => .ok (x.1, x.2.map fun y => (v y.1 y.2.1, y.2.2))

theorem view_andThen {α β γ δ : Type} {r : GRun α} {f : α → GroupPlay → InStream → GRun β} {t : Talk γ}
    {g : γ → InStream → Talk δ} {v : α → GroupPlay → γ} {w : β → GroupPlay → δ} (h : r.view v = .ok t)
    (hf : ∀ text a p s, r = .ok (text, some (a, p, s)) → (f a p s).view w = .ok (g (v a p) s)) :
    (r.andThen f).view w = .ok (t.next g) := by
  unfold GRun.view at h
  obtain ⟨⟨t1, o⟩, h1, h2⟩ := Res.bind_eq_ok h
  simp only [Res.ok.injEq] at h2
  subst h2
  subst h1
  cases o with
  | none => rfl
  | some y =>
    obtain ⟨a, p, s⟩ := y
    have h3 := hf t1 a p s rfl
    unfold GRun.view at h3
    obtain ⟨⟨t2, o2⟩, h4, h5⟩ := Res.bind_eq_ok h3
    simp only [Res.ok.injEq] at h5
    simp only [GRun.andThen, Res.bind, h4, GRun.view, Talk.next, Option.map_some]
    rw [← h5]

theorem view_after {α γ : Type} {r : GRun α} {v : α → GroupPlay → γ} {t : Talk γ} (text : Str) (h : r.view v = .ok t) :
    (r.after text).view v = .ok (t.begin text) := by
  unfold GRun.view at h
  obtain ⟨⟨t1, o⟩, h1, h2⟩ := Res.bind_eq_ok h
  simp only [Res.ok.injEq] at h2
  subst h2
  subst h1
  rfl

theorem view_ask {n : Nat} {msg : Str} {cs : Choices} {dflt : Option UInt8} {useQuit : Bool} {p : GroupPlay}
    {s : InStream} (hs : cs.Sorted) (ha : Acceptable quizQuit useQuit cs dflt) :
    (groupAsk n msg cs dflt useQuit p s).view (fun a _ => a) = .ok (readKey n msg (offered quizQuit useQuit cs) dflt s) := by
  unfold groupAsk readKey GRun.view
  rw [C72_prompt quizQuit msg useQuit cs dflt hs ha]
  simp only [Res.bind]
  cases Choice.ask (promptText msg (offered quizQuit useQuit cs) dflt) (offered quizQuit useQuit cs) dflt n s [] with
  | mk t o =>
    cases o with
    | none => rfl
    | some x => rfl

theorem plain_sorted {count : Nat} (h58 : count ≤ 58) (f : UInt8 → Bool) :
    Choices.Sorted (plain ((sortedLetters count).filter f)) := by
  have h3 := sortedLetters_sorted count h58
  rw [List.pairwise_cons] at h3
  exact List.pairwise_map.2 (List.Pairwise.filter _ h3.2)

theorem mem_plain (l : List UInt8) (x : UInt8 × Str) : x ∈ plain l ↔ x.2 = [] ∧ x.1 ∈ l := by
  unfold plain
  rw [List.mem_map]
  constructor
  · rintro ⟨c, hc, rfl⟩; exact ⟨rfl, hc⟩
  · rintro ⟨h1, h2⟩; exact ⟨x.1, h2, by rw [← h1]⟩

theorem mem_answerChoices : ∀ (l : List UInt8) (x : UInt8 × Str), x ∈ answerChoices l ↔ x.2 = [] ∧ x.1 ∈ l
  | [], x => by simp [answerChoices]
  | a :: r, x => by
    rw [answerChoices, mem_assign, mem_answerChoices r x, List.mem_cons]
    constructor
    · rintro (h | ⟨h1, -⟩)
      · exact ⟨by rw [h], .inl (by rw [h])⟩
      · exact ⟨h1.1, .inr h1.2⟩
    · rintro ⟨h1, h2⟩
      by_cases hx : x.1 = a
      · exact .inl (Prod.ext hx h1)
      · exact .inr ⟨⟨h1, h2.resolve_left hx⟩, hx⟩

theorem answerChoices_eq {count : Nat} (h58 : count ≤ 58) {answers : List UInt8}
    (h : ∀ a ∈ answers, a ∈ lettersFor true count) :
    answerChoices answers = plain ((sortedLetters count).filter answers.contains) := by
  refine sorted_ext (answerChoices_ok answers).1 (plain_sorted h58 _) fun x => ?_
  rw [mem_answerChoices, mem_plain, List.mem_filter, sortedLetters_mem count h58]
  constructor
  · rintro ⟨h1, h2⟩; exact ⟨h1, h _ h2, by simpa using h2⟩
  · rintro ⟨h1, _, h2⟩; exact ⟨h1, by simpa using h2⟩

theorem view_entry {first last : Bool} {count : Nat} (h58 : count ≤ 58) {p : GroupPlay}
    (h : Asking true first last count p) (hne : p.answers ≠ []) (n : Nat) (s : InStream) :
    (askAnswerToEdit n p s).view (fun e _ => e) = .ok (talkEntry count n p.answers s) := by
  unfold askAnswerToEdit talkEntry
  by_cases h1 : p.answers.length = 1
  · rw [if_pos h1, if_pos h1]; rfl
  · rw [if_neg h1, if_neg h1]
    obtain ⟨a, ha⟩ := List.exists_mem_of_ne_nil _ hne
    obtain ⟨k1, k2⟩ := answerChoices_ok p.answers
    have hacc : Acceptable quizQuit false (answerChoices p.answers) none :=
      acceptable_of (lettersFor_ok true count h58) (letters_print true count h58)
        (fun c hc => .inl (h.letters c ((k2 c).1 hc))) (.inr ⟨a, (k2 a).2 ha⟩) (by intro d hd; cases hd)
    rw [← answerChoices_eq h58 h.letters]
    refine view_andThen (view_ask k1 hacc) ?_
    intro text c p1 s1 hr
    obtain ⟨rfl, hc⟩ := groupAsk_ok k1 hacc hr
    have hc : c ∈ p1.answers := (k2 c).1 hc
    cases hf : p1.answers.findIdx? (· == c) with
    | none =>
      rw [List.findIdx?_eq_none_iff] at hf
      simpa using hf c hc
    | some i =>
      have : p1.answers.idxOf c = i := by
        have := List.findIdx?_eq_some_iff_findIdx_eq.1 hf
        exact this.2
      simp only [this]
      rfl

theorem someEq (a b : UInt8) : (some a == some b) = (b == a) := by
  rw [Bool.eq_iff_iff, beq_iff_eq, beq_iff_eq, Option.some.injEq]
  exact eq_comm

theorem view_edit {first last : Bool} {count : Nat} (h58 : count ≤ 58) {p : GroupPlay}
    (h : Asking true first last count p) (hne : p.answers ≠ []) (n : Nat) (s : InStream) :
    (askEdit n p s).view (fun _ p => p.answers) = .ok (talkEdit count n p.answers s) := by
  have hL := lettersFor_ok true count h58
  have hP := letters_print true count h58
  unfold askEdit talkEdit
  refine view_andThen (view_entry h58 h hne n s) ?_
  intro text e p1 s1 hr
  have hp1 := h.toEdit h58 hne hr
  subst hp1
  have hlt : e < p1.answers.length := by
    unfold askAnswerToEdit at hr
    split at hr
    · next hl => rw [(done_ok hr).1]; omega
    · obtain ⟨t3, c, p2, s2, t4, h3, h4, -⟩ := andThen_ok hr
      revert h4
      cases hf : p2.answers.findIdx? (· == c) with
      | none => intro h4; cases h4
      | some j =>
        intro h4
        obtain ⟨rfl, rfl⟩ := done_ok h4
        exact (List.findIdx?_eq_some_iff_findIdx_eq.1 hf).1
  have ho : p1.answers[e]? = some p1.answers[e] := List.getElem?_eq_getElem hlt
  have hmem : p1.answers[e] ∈ p1.answers := List.getElem_mem hlt
  generalize p1.answers[e] = old at ho hmem
  simp only [ho]
  rw [new_choices h58 h rfl ho]
  have e1 : ((sortedLetters count).filter fun c => c == old || !p1.answers.contains c).map (fun c => (c, ([] : Str))) =
      plain ((sortedLetters count).filter fun c => some old == some c || !p1.answers.contains c) := by
    unfold plain
    congr 2
    funext c
    rw [show (some old == some c) = (c == old) from someEq old c]
  rw [e1]
  have hkey : ∀ c, Choices.has (plain ((sortedLetters count).filter fun c => some old == some c || !p1.answers.contains c)) c = true ↔
      c ∈ lettersFor true count ∧ (c = old ∨ c ∉ p1.answers) := by
    intro c
    rw [has_keys, plain, List.map_map]
    simp only [List.mem_map, List.mem_filter, Function.comp, exists_eq_right, sortedLetters_mem count h58, someEq]
    simp
  have hacc : Acceptable quizQuit false
      (plain ((sortedLetters count).filter fun c => some old == some c || !p1.answers.contains c)) (some old) :=
    acceptable_of hL hP (fun c hc => .inl ((hkey c).1 hc).1) (.inr ⟨old, (hkey old).2 ⟨h.letters _ hmem, .inl rfl⟩⟩)
      (by intro d hd; cases hd; exact (hkey old).2 ⟨h.letters _ hmem, .inl rfl⟩)
  refine view_andThen (view_ask (plain_sorted h58 _) hacc) ?_
  intro text2 c p2 s2 hr2
  obtain ⟨rfl, -⟩ := groupAsk_ok (plain_sorted h58 _) hacc hr2
  rfl

theorem Asking.keys {quizMode first last : Bool} {count : Nat} {p : GroupPlay} (h : Asking quizMode first last count p)
    {c : UInt8} (hc : (offered quizQuit true p.choices).has c = true) :
    (c ∈ lettersFor quizMode count ∧ c ∉ p.answers) ∨ isChoiceOption c ∨ c = 0x2f := by
  rcases offered_keys hc with h1 | ⟨-, h1⟩
  · rcases h.offers.keys h1 with h2 | h2
    · exact .inl h2
    · exact .inr (.inl h2)
  · exact .inr (.inr h1)

theorem Asking.canEdit {quizMode first last : Bool} {count : Nat} (h58 : count ≤ 58) {p : GroupPlay}
    (h : Asking quizMode first last count p) (hc : (offered quizQuit true p.choices).has 0x2a = true) : p.answers ≠ [] := by
  rcases offered_keys hc with h1 | ⟨-, h1⟩
  · obtain ⟨d, hd⟩ := (has_iff _ _).1 h1
    rcases (h.offers.mem _).1 hd with ⟨-, h2, -⟩ | h2
    · exact absurd (.inr (.inr (.inl rfl))) ((lettersFor_ok quizMode count h58).opts _ h2)
    · intro h0
      rw [h0] at h2
      exact (extras_unanswered _ _ _ _ _ h2).2 rfl
  · exact absurd h1 (by decide)

/-- What is kept of a question. -/
def leftOf {α : Type} (o : α) (p : GroupPlay) : Left α := (o, p.answers, p.shown)

theorem view_done {α : Type} (o : α) (p : GroupPlay) (s : InStream) :
    (GRun.done o p s).view leftOf = .ok ([], some ((o, p.answers, p.shown), s)) := rfl

/-- Asking for the next answer is as specified, and leaves the choices as they have to be for the next one. -/
theorem view_answer {quizMode first last : Bool} {count : Nat} (h58 : count ≤ 58) (n : Nat) :
    ∀ (fuel : Nat) {p : GroupPlay}, Asking quizMode first last count p → ∀ s : InStream,
      (askAnswer quizMode n fuel p s).view leftOf =
        .ok (talkAnswer quizMode first last count n fuel p.answers p.shown s) ∧
      ∀ text o p' s', askAnswer quizMode n fuel p s = .ok (text, some (o, p', s')) → Asking quizMode first last count p'
  | 0, _, _, _ => ⟨rfl, by intro text o p' s' h; cases h⟩
  | fuel + 1, p, h, s => by
    have hacc := h.acceptable h58
    have hs := h.offers.sorted
    unfold askAnswer talkAnswer
    rw [C111_answers]
    have hoff := h.offers.offered h58
    constructor
    · refine view_after _ ?_
      have hmsg : groupMsg quizMode p.answers =
          if quizMode then u8!"  Reading for: " ++ toDec (p.answers.length + 1) else u8!"  Select" := rfl
      rw [← hoff, ← hmsg]
      refine view_andThen (view_ask hs hacc) ?_
      intro text c p1 s1 hr
      obtain ⟨rfl, hc⟩ := groupAsk_ok hs hacc hr
      by_cases h1 : c = 0x27
      · simp only [if_pos h1]; rfl
      simp only [if_neg h1]
      by_cases h5 : c = 0x2a
      · have n2 : ¬ c = 0x2d := by rw [h5]; decide
        have n3 : ¬ c = 0x2c := by rw [h5]; decide
        have n4 : ¬ c = 0x2e := by rw [h5]; decide
        simp only [if_neg n2, if_neg n3, if_neg n4, if_pos h5]
        have hne := h.canEdit h58 (h5 ▸ hc)
        have hq := h.isQuiz hne
        subst hq
        refine view_andThen (view_edit h58 h hne n s1) ?_
        intro text2 u p2 s2 hr2
        obtain ⟨k1, -, k3⟩ := h.edit h58 hne hr2
        rw [← k3]
        exact (view_answer h58 n fuel k1 s2).1
      simp only [if_neg h5]
      by_cases h3 : c = 0x2c
      · have n2 : ¬ c = 0x2d := by rw [h3]; decide
        simp only [if_pos h3, if_neg n2]; rfl
      simp only [if_neg h3]
      by_cases h2 : c = 0x2d
      · simp only [if_pos h2]; rfl
      simp only [if_neg h2]
      by_cases h4 : c = 0x2e
      · simp only [if_pos h4]; rfl
      simp only [if_neg h4]
      by_cases h6 : c = 0x2f
      · simp only [if_pos h6]; rfl
      simp only [if_neg h6]; rfl
    · intro text o p' s' hres
      obtain ⟨t2, hres, -⟩ := after_ok hres
      obtain ⟨t3, c, p1, s1, t4, hr, hx, -⟩ := andThen_ok hres
      obtain ⟨rfl, hc⟩ := groupAsk_ok hs hacc hr
      by_cases h1 : c = 0x27
      · rw [if_pos h1] at hx; rw [(done_ok hx).2]; exact h
      rw [if_neg h1] at hx
      by_cases h2 : c = 0x2d
      · rw [if_pos h2] at hx; rw [(done_ok hx).2]; exact h.toggle h58
      rw [if_neg h2] at hx
      by_cases h3 : c = 0x2c
      · rw [if_pos h3] at hx; rw [(done_ok hx).2]; exact h
      rw [if_neg h3] at hx
      by_cases h4 : c = 0x2e
      · rw [if_pos h4] at hx; rw [(done_ok hx).2]; exact h
      rw [if_neg h4] at hx
      by_cases h5 : c = 0x2a
      · rw [if_pos h5] at hx
        have hne := h.canEdit h58 (h5 ▸ hc)
        obtain ⟨t5, u, p2, s2, t6, he, hx2, -⟩ := andThen_ok hx
        exact (view_answer h58 n fuel (h.edit h58 hne he).1 s2).2 _ _ _ _ hx2
      rw [if_neg h5] at hx
      by_cases h6 : c = 0x2f
      · rw [if_pos h6] at hx; rw [(done_ok hx).2]; exact h
      rw [if_neg h6] at hx
      rw [(done_ok hx).2]
      rcases h.keys hc with ⟨k1, k2⟩ | k1 | k1
      · exact h.answered h58 k1 k2
      · rcases k1 with k1 | k1 | k1 | k1 | k1
        · exact absurd k1 h2
        · exact absurd k1 h4
        · exact absurd k1 h5
        · exact absurd k1 h1
        · exact absurd k1 h3
      · exact absurd k1 h6

theorem view_answers {quizMode first last : Bool} {count : Nat} (h58 : count ≤ 58) (n : Nat) :
    ∀ (k : Nat) {p : GroupPlay}, Asking quizMode first last count p → ∀ s : InStream,
      (askAnswers quizMode n k p s).view leftOf = .ok (talkAnswers quizMode first last count n k p.answers p.shown s) ∧
      ∀ text o p' s', askAnswers quizMode n k p s = .ok (text, some (o, p', s')) → Asking quizMode first last count p'
  | 0, p, h, s => ⟨rfl, by intro text o p' s' hx; rw [(done_ok hx).2]; exact h⟩
  | k + 1, p, h, s => by
    obtain ⟨v1, v2⟩ := view_answer h58 n n h s
    unfold askAnswers talkAnswers
    constructor
    · refine view_andThen v1 ?_
      intro text o p1 s1 hr
      have h1 := v2 _ _ _ _ hr
      cases o with
      | answered => exact (view_answers h58 n k h1 s1).1
      | _ => rfl
    · intro text o p' s' hres
      obtain ⟨t3, o1, p1, s1, t4, hr, hx, -⟩ := andThen_ok hres
      have h1 := v2 _ _ _ _ hr
      cases o1 with
      | answered => exact (view_answers h58 n k h1 s1).2 _ _ _ _ hx
      | _ => rw [(done_ok hx).2]; exact h1

theorem view_rounds {quizMode first last : Bool} (t : GroupType) (total : Nat) (current : UInt16) (g : GroupEntry)
    (questions readings : List GroupItem) (h58 : questions.length ≤ 58) (n : Nat) (screen : List UInt8 → Bool → Str)
    (hscreen : ∀ answers shown, showGroup quizMode t answers 0 (questions.map (·.shown)) (readings.map (·.right shown)) =
      .ok (screen answers shown)) :
    ∀ (fuel : Nat) {p : GroupPlay}, Asking quizMode first last questions.length p → ∀ s : InStream,
      (groupRounds quizMode t total current g questions readings n fuel p s).view leftOf =
        .ok (talkQuestion quizMode first last questions.length n
          (fun answers shown => groupHead quizMode current total g questions.length ++ screen answers shown) fuel
          p.answers p.shown s)
  | 0, _, _, _ => rfl
  | fuel + 1, p, h, s => by
    obtain ⟨v1, v2⟩ := view_answers h58 n (questions.length - p.answers.length) h s
    unfold groupRounds talkQuestion
    rw [hscreen]
    simp only [Res.bind]
    refine view_after _ (view_andThen v1 ?_)
    intro text o p1 s1 hr
    have h1 := v2 _ _ _ _ hr
    by_cases ho : o = .refresh
    · rw [if_pos ho, if_pos (show (leftOf o p1).1 = .refresh from ho)]
      exact view_rounds t total current g questions readings h58 n screen hscreen fuel h1 s1
    · rw [if_neg ho, if_neg (show ¬ (leftOf o p1).1 = .refresh from ho)]
      rfl

/-- A question of a group of up to 58 members is the dialog of the specification for any input: at every prompt the
letters that weren't chosen are offered and the other choices are those of the state of the question. -/
theorem C160_question (quizMode : Bool) (t : GroupType) (total : Nat) (current : UInt16) (g : GroupEntry)
    (questions readings : List GroupItem) (shown : Bool) (n : Nat) (s : InStream) (h58 : questions.length ≤ 58)
    (screen : List UInt8 → Bool → Str)
    (hscreen : ∀ answers shown, showGroup quizMode t answers 0 (questions.map (·.shown)) (readings.map (·.right shown)) =
      .ok (screen answers shown)) :
    (groupRounds quizMode t total current g questions readings n n
        ⟨[], addLetters quizMode questions.length (quizChoices quizMode current total shown), shown⟩ s).view leftOf =
      .ok (talkQuestion quizMode (current == 0) (decide (current.toNat + 1 = total)) questions.length n
        (fun answers shown => groupHead quizMode current total g questions.length ++ screen answers shown) n [] shown s) :=
  view_rounds t total current g questions readings h58 n screen hscreen n
    ⟨offers_start quizMode shown current total questions.length h58, List.nodup_nil, by simp⟩ s
