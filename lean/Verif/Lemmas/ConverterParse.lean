import Verif.Lemmas.ConverterTable
import Verif.Lemmas.Utf8CharText
/-!
# How the converter splits kana text into groups
-/
namespace KT
open Spec

/-- Strings delivered by an iteration over all characters (`C33_pieces`). -/
def IsPiece (p : Str) : Prop :=
  (∃ b : UInt8, b.toNat < 128 ∧ b ≠ 0 ∧ p = [b]) ∨
  (∃ c : Char, 128 ≤ c.toNat ∧ ¬ IsSelector c ∧ ¬ IsKanaMark c ∧
    (p = String.utf8EncodeChar c ∨
      ∃ v : Char, IsSelector v ∧ p = String.utf8EncodeChar c ++ String.utf8EncodeChar v))

theorem utf8Chars_isPiece {s : Str} {ps : List Str} {st : Utf8CharState}
    (h : utf8Chars s false = some (ps, st)) : ∀ p ∈ ps, IsPiece p := by
  obtain ⟨ts, ht⟩ := tokens_exists s
  obtain ⟨st', h1, _⟩ := utf8Chars_tokens false ht
  rw [h] at h1
  have : ps = pieces false ts := by simpa using (congrArg (Option.map Prod.fst) h1)
  subst this
  intro p hp
  rcases pieces_shape false ht p hp with ⟨b, h1, h2, h3, _⟩ | h
  · exact Or.inl ⟨b, h1, h2, h3⟩
  · exact Or.inr h

theorem utf8Chars_total (s : Str) : ∃ ps st, utf8Chars s false = some (ps, st) := by
  obtain ⟨ts, ht⟩ := tokens_exists s
  obtain ⟨st', h1, _⟩ := utf8Chars_tokens false ht
  exact ⟨_, _, h1⟩

/-- Tokens of a list of pieces. -/
theorem pieces_tokens : ∀ (ps : List Str), (∀ p ∈ ps, IsPiece p) →
    ∃ ts, Tokens ps.flatten ts ∧ pieces false ts = ps ∧
      (∀ v ts', ts = .char v :: ts' → ¬ IsSelector v ∧ ¬ IsKanaMark v) := by
  intro ps
  induction ps with
  | nil => intro _; exact ⟨[], .nil, rfl, by intro _ _ h; cases h⟩
  | cons p ps ih =>
    intro h
    obtain ⟨ts, h1, h2, h3⟩ := ih fun q hq => h q (List.mem_cons_of_mem _ hq)
    rcases h p List.mem_cons_self with ⟨b, hb, h0, rfl⟩ | ⟨c, hc, hs, hm, rfl | ⟨v, hv, rfl⟩⟩
    · refine ⟨.ascii b :: ts, .ascii h0 hb h1, ?_, by intro _ _ h; cases h⟩
      simp [pieces, h2]
    · refine ⟨.char c :: ts, ?_, ?_, by intro _ _ h; cases h; exact ⟨hs, hm⟩⟩
      · simp only [List.flatten_cons]; exact .char hc h1
      · rw [pieces_other false (by simp [hs, hm]) h3, h2]
    · refine ⟨.char c :: .char v :: ts, ?_, ?_, by intro _ _ h; cases h; exact ⟨hs, hm⟩⟩
      · simp only [List.flatten_cons, List.append_assoc]; exact .char hc (.char (selector_ge hv) h1)
      · simp [pieces, hs, hm, hv, h2]

theorem utf8Chars_pieces {ps : List Str} (h : ∀ p ∈ ps, IsPiece p) :
    ∃ st, utf8Chars ps.flatten false = some (ps, st) := by
  obtain ⟨ts, h1, h2, _⟩ := pieces_tokens ps h
  obtain ⟨st', h3, _⟩ := utf8Chars_tokens false h1
  exact ⟨st', by rw [h3, h2]⟩

/-! ## Totality of the parts -/

theorem getRomaji_some {k : Kana} (hk : k ∈ allKana) (f : ConvertFlags) :
    ∃ b r, k.getRomaji f = some (b :: r) := by
  have h : allKana.all (fun k => !k.romaji.isEmpty && (match k.rec'.hepburn with
      | some h => !h.isEmpty
      | none => true) && (match k.rec'.kunrei with
      | some h => !h.isEmpty
      | none => true) && (!k.rec'.kunreiVariant || (match k.rec'.variants with
      | (_ :: _) :: _ => true
      | _ => false))) = true := by decide +kernel
  have h := List.all_eq_true.mp h k hk
  simp only [Bool.and_eq_true] at h
  obtain ⟨⟨⟨h1, h2⟩, h3⟩, h4⟩ := h
  obtain ⟨b0, r0, hr⟩ : ∃ b r, k.romaji = b :: r := by
    cases hr : k.romaji with
    | nil => rw [hr] at h1; simp at h1
    | cons b r => exact ⟨b, r, rfl⟩
  unfold Kana.getRomaji
  split
  · rename_i x _ hh
    rw [hh] at h2
    cases x with
    | nil => simp at h2
    | cons b r => exact ⟨b, r, rfl⟩
  · split
    · rename_i hk
      simp only [Bool.and_eq_true] at hk
      rw [hk.2] at h4
      simp only [Bool.not_true, Bool.false_or] at h4
      split at h4
      · rename_i b r l hv
        exact ⟨b, r, by rw [hv]; rfl⟩
      · exact absurd h4 (by decide)
    · split
      · rename_i x _ hh
        rw [hh] at h3
        cases x with
        | nil => simp at h3
        | cons b r => exact ⟨b, r, rfl⟩
      · exact ⟨b0, r0, by rw [hr]⟩

theorem get_some {k : Kana} (hk : k ∈ allKana) (t : CharType) (f : ConvertFlags) :
    ∃ s, k.get t f = some s := by
  cases t
  · exact ⟨_, rfl⟩
  · exact ⟨_, rfl⟩
  · obtain ⟨b, r, h⟩ := getRomaji_some hk f
    exact ⟨_, h⟩

namespace Converter

theorem get_ok (c : Converter) {k : Kana} (hk : k ∈ allKana) : ∃ s, c.get k = .ok s := by
  obtain ⟨s, h⟩ := get_some hk c.target c.flags
  exact ⟨s, by unfold get; rw [h]; rfl⟩

/-- `prevKana` points into the tables (or is null). -/
def PrevOk (p : Option Kana) : Prop := ∀ k, p = some k → k ∈ allKana

theorem prevOk_none : PrevOk none := by intro k h; cases h
theorem prevOk_some {k : Kana} (h : k ∈ allKana) : PrevOk (some k) := by
  intro j hj; cases hj; exact h

/-- The part of `processKanaMacron` after the string has been looked up. -/
def macronTail (c : Converter) (prolong : Bool) (prevKana : Option Kana) (kana : Kana) (result : Str) :
    Res (Str × Option Kana) :=
  if prolong then
    if c.target ≠ .romaji then .ok (result ++ prolongMark, prevKana)
    else match result.getLast? with
      | none => .ub
      | some b => match macronLetter b with
        | some m => .ok (result.dropLast ++ m, prevKana)
        | none => .ok (result ++ prolongMark, prevKana)
  else .ok (result, some kana)

theorem macron_eq (c : Converter) (pr : Bool) (prev : Option Kana) (k : Kana) (sok : Bool) :
    c.processKanaMacron pr prev k sok =
      (if sok = true then Res.ofOption (k.getSokuonRomaji c.flags) else c.get k).bind
        (c.macronTail pr prev k) := by cases sok <;> rfl

theorem macron_ok (c : Converter) (pr : Bool) {prev : Option Kana} (hp : PrevOk prev) {k : Kana}
    (hk : k ∈ allKana) (sok : Bool) :
    ∃ s p, c.processKanaMacron pr prev k sok = .ok (s, p) ∧ PrevOk p := by
  obtain ⟨s, hs⟩ : ∃ s, (if sok = true then Res.ofOption (k.getSokuonRomaji c.flags) else c.get k) = .ok s ∧
      (c.target = .romaji → s ≠ []) := by
    cases sok with
    | true =>
      obtain ⟨b, r, h⟩ := getRomaji_some hk c.flags
      refine ⟨_, by simp [Kana.getSokuonRomaji, h, Res.ofOption]; rfl, by simp⟩
    | false =>
      obtain ⟨s, h⟩ := get_some hk c.target c.flags
      refine ⟨s, by simp [get, h, Res.ofOption], ?_⟩
      intro ht
      rw [ht] at h
      obtain ⟨b, r, h'⟩ := getRomaji_some hk c.flags
      have : k.get .romaji c.flags = k.getRomaji c.flags := rfl
      rw [this, h'] at h
      simp at h; simp [← h]
  rw [macron_eq, hs.1]
  simp only [Res.bind]
  unfold macronTail
  split
  · split
    · exact ⟨_, _, rfl, hp⟩
    · rename_i ht
      have ht : c.target = .romaji := by simpa using ht
      have := hs.2 ht
      obtain ⟨b, hb⟩ : ∃ b, s.getLast? = some b := by
        cases s with
        | nil => exact absurd rfl this
        | cons a s => exact ⟨_, List.getLast?_eq_some_getLast (by simp)⟩
      rw [hb]
      simp only
      split
      · exact ⟨_, _, rfl, hp⟩
      · exact ⟨_, _, rfl, hp⟩
  · exact ⟨_, _, rfl, prevOk_some hk⟩

theorem processFirst_ok (c : Converter) (t : CharType) (g : Str) :
    ∃ s p, c.processFirstKana t g = .ok (s, p) ∧ PrevOk p := by
  unfold processFirstKana
  split
  · rename_i k h
    exact macron_ok c false prevOk_none (findKana_mem h).1 false
  · exact ⟨_, _, rfl, prevOk_none⟩

theorem processKana_ok (c : Converter) (t : CharType) (g : Str) {prev : Option Kana}
    (hp : PrevOk prev) (pr : Bool) :
    ∃ s p, c.processKana t g prev pr = .ok (s, p) ∧ PrevOk p := by
  unfold processKana
  split
  · split
    · rename_i k h
      exact macron_ok c pr prevOk_none (findKana_mem h).1 false
    · split
      · split
        · rename_i k h
          have hk := (findKana_mem h).1
          dsimp only
          split
          · exact macron_ok c pr prevOk_none hk true
          · split
            · obtain ⟨a, p1, h1, hp1⟩ := processFirst_ok c t (g.take 3)
              obtain ⟨b, p2, h2, hp2⟩ := macron_ok c pr hp1 hk false
              exact ⟨a ++ b, p2, by rw [h1, Res.bind_ok]; simp only; rw [h2, Res.bind_ok], hp2⟩
            · obtain ⟨b, p1, h1, hp1⟩ := macron_ok c pr prevOk_none hk false
              obtain ⟨a, p2, h2, hp2⟩ := processFirst_ok c t (g.take 3)
              exact ⟨a ++ b, p2, by rw [h1, Res.bind_ok]; simp only; rw [h2, Res.bind_ok], hp2⟩
        · obtain ⟨a, p1, h1, hp1⟩ := processFirst_ok c t (g.take 3)
          exact ⟨a ++ g.drop 3, p1, by dsimp only; rw [h1, Res.bind_ok], hp1⟩
      · exact ⟨_, _, rfl, prevOk_none⟩
  · split
    · exact ⟨_, _, rfl, hp⟩
    · exact ⟨_, _, rfl, hp⟩

/-- The text of a group. -/
def chars (t : CharType) (g : List Kana) : Str := g.flatMap (·.str t)

/-- The string that `processKana` returns for a group. -/
def groupOut (c : Converter) (t : CharType) (g : List Kana) (pr : Bool) : Str :=
  match c.processKana t (chars t g) none pr with
  | .ok (s, _) => s
  | _ => []

theorem processKana_prev (c : Converter) (t : CharType) {g : Str} (hg : g ≠ []) (prev : Option Kana)
    (pr : Bool) : c.processKana t g prev pr = c.processKana t g none pr := by
  unfold processKana
  rw [if_pos hg, if_pos hg]

theorem chars_ne {t : CharType} {g : List Kana} (hg : g ≠ []) (hk : ∀ k ∈ g, k ∈ allKana) :
    chars t g ≠ [] := by
  cases g with
  | nil => exact absurd rfl hg
  | cons k g =>
    intro h
    simp only [chars, List.flatMap_cons, List.append_eq_nil_iff] at h
    exact str_length k (hk k List.mem_cons_self) t h.1

theorem group_ok (c : Converter) (t : CharType) {g : List Kana} (hg : g ≠ [])
    (hk : ∀ k ∈ g, k ∈ allKana) (prev : Option Kana) (pr : Bool) :
    ∃ p, c.processKana t (chars t g) prev pr = .ok (groupOut c t g pr, p) ∧ PrevOk p := by
  rw [processKana_prev c t (chars_ne hg hk)]
  obtain ⟨s, p, h, hp⟩ := processKana_ok c t (chars t g) prevOk_none pr
  exact ⟨p, by unfold groupOut; rw [h], hp⟩

/-! ## Groups -/

/-- Letters that are neither っ nor ん nor small. -/
def Normal (k : Kana) : Prop := k ≠ smallTsu ∧ k ≠ kanaN ∧ k.small = false

/-- The groups that can be pending, with the state of the machine. -/
inductive Shape : State → List Kana → Prop where
  | nil : Shape .new []
  | one {x} : x ≠ smallTsu → x ≠ kanaN → Shape .new [x]
  | tsu : Shape .smallTsu [smallTsu]
  | tsuOne {x} : Normal x → Shape .smallTsu [smallTsu, x]
  | small {s} : s.small = true → Shape .done [s]
  | two {x s} : x ≠ smallTsu → x ≠ kanaN → s.small = true → Shape .done [x, s]
  | tsuSmall {s} : s.small = true → Shape .done [smallTsu, s]
  | tsuTwo {x s} : Normal x → s.small = true → Shape .done [smallTsu, x, s]
  | n : Shape .done [kanaN]

/-- Letters of a group: single letters of the table. -/
def Letters (g : List Kana) : Prop := ∀ k ∈ g, k ∈ allKana ∧ k.mono = true

theorem letters_mem {g : List Kana} (h : Letters g) : ∀ k ∈ g, k ∈ allKana := fun k hk => (h k hk).1

theorem chars_append (t : CharType) (g h : List Kana) : chars t (g ++ h) = chars t g ++ chars t h := by
  simp [chars]

/-- What happens to a letter. -/
theorem processOneKana_cases (c : Converter) {t : CharType} (ht : t ≠ .romaji) {s : State}
    {g : List Kana} (hs : Shape s g) (hl : Letters g) {k : Kana} (hk : k ∈ allKana)
    {st : FromState} (h1 : st.state = s) (h2 : st.kanaGroup = chars t g) :
    (∃ s', Shape s' (g ++ [k]) ∧ c.processOneKana t (k.str t) st =
      .ok { st with state := s', kanaGroup := chars t (g ++ [k]) }) ∨
    (∃ s', Shape s' [k] ∧ c.processOneKana t (k.str t) st =
      c.doneGroup t (k.str t) st .newGroup s') := by
  have len : ∀ x : Kana, x ∈ allKana → x.mono = true → (x.str t).length = 3 := fun x hx hm => mono_length3 hx hm t
  have happ : ∀ s', ({ st with state := s', kanaGroup := st.kanaGroup ++ k.str t } : FromState) =
      { st with state := s', kanaGroup := chars t (g ++ [k]) } := by
    intro s'; rw [h2, chars_append]; simp [chars]
  unfold processOneKana
  by_cases hts : k = smallTsu
  · rw [if_pos ((containsKana_iff ht smallTsu_mem hk).mpr hts)]
    right; exact ⟨.smallTsu, hts ▸ .tsu, rfl⟩
  · rw [if_neg (fun h => hts ((containsKana_iff ht smallTsu_mem hk).mp h))]
    by_cases hn : k = kanaN
    · rw [if_pos ((containsKana_iff ht kanaN_mem hk).mpr hn)]
      right; exact ⟨.done, hn ▸ .n, rfl⟩
    · rw [if_neg (fun h => hn ((containsKana_iff ht kanaN_mem hk).mp h))]
      have hdone : ∃ s', Shape s' [k] ∧ c.doneGroup t (k.str t) st = c.doneGroup t (k.str t) st .newGroup s' :=
        ⟨.new, .one hts hn, rfl⟩
      by_cases hsm : k.small = true
      · have hm := (mem_smallKana ht hk).mpr hsm
        cases hs with
        | nil => rw [if_pos (by rw [h1]; decide), if_pos hm]; left; exact ⟨.done, .small hsm, by rw [happ]⟩
        | one h3 h4 => rw [if_pos (by rw [h1]; decide), if_pos hm]; left; exact ⟨.done, .two h3 h4 hsm, by rw [happ]⟩
        | tsu => rw [if_pos (by rw [h1]; decide), if_pos hm]; left; exact ⟨.done, .tsuSmall hsm, by rw [happ]⟩
        | tsuOne h3 => rw [if_pos (by rw [h1]; decide), if_pos hm]; left; exact ⟨.done, .tsuTwo h3 hsm, by rw [happ]⟩
        | _ => rw [if_neg (by rw [h1]; simp)]; right; exact hdone
      · have hm : ¬ k.str t ∈ smallKana t := fun h => hsm ((mem_smallKana ht hk).mp h)
        have hnorm : Normal k := ⟨hts, hn, by simpa using hsm⟩
        cases hs with
        | nil =>
          rw [if_pos (by rw [h1]; decide), if_neg hm, if_pos (by rw [h1, h2]; simp [chars])]
          left
          refine ⟨.new, .one hts hn, ?_⟩
          rw [← happ, ← h1]
        | one h3 h4 =>
          rw [if_pos (by rw [h1]; decide), if_neg hm, if_neg (by
            rw [h1, h2]
            have := len _ (hl _ List.mem_cons_self).1 (hl _ List.mem_cons_self).2
            simp [chars]; intro h; rw [h] at this; simp at this)]
          right; exact hdone
        | tsu =>
          rw [if_pos (by rw [h1]; decide), if_neg hm, if_pos (by
            rw [h1, h2]
            have := len _ (hl _ List.mem_cons_self).1 (hl _ List.mem_cons_self).2
            simp [chars]; omega)]
          left
          refine ⟨.smallTsu, .tsuOne hnorm, ?_⟩
          rw [← happ, ← h1]
        | @tsuOne x h3 =>
          rw [if_pos (by rw [h1]; decide), if_neg hm, if_neg (by
            rw [h1, h2]
            have := len _ (hl smallTsu (by simp)).1 (hl smallTsu (by simp)).2
            have := len _ (hl x (by simp)).1 (hl x (by simp)).2
            simp [chars]; omega)]
          right; exact hdone
        | _ => rw [if_neg (by rw [h1]; simp)]; right; exact hdone

/-! ## Parsing -/

/-- Parts of a text as the converter sees it. -/
inductive Item where
  | group (g : List Kana) (prolong : Bool) (next : Option Kana)
  | prolong
  | mark (p : Str) (m : IterationMark) (prev : Option Kana)
  | other (p : Str)

/-- The characters of an item. -/
def Item.src (t : CharType) : Item → List Str
  | .group g pr _ => g.map (·.str t) ++ if pr then [prolongMark] else []
  | .prolong => [prolongMark]
  | .mark p _ _ => [p]
  | .other p => [p]

/-- The output for an item. -/
def itemOut (c : Converter) (t : CharType) : Item → Str
  | .group g pr next => groupOut c t g pr ++
      if c.target = .romaji ∧ g = [kanaN] ∧ (∃ k, next = some k ∧ k.afterN = true) then [apostrophe] else []
  | .prolong => prolongMark
  | .mark _ m prev => (m.get c.target c.flags prev).getD []
  | .other p =>
    if c.target = .romaji then
      match wideDelimFind p with
      | some n => [n]
      | none => p
    else p

/-- First letter of a list of items that starts with a group. -/
def headLetter : List Item → Option Kana
  | .group g _ _ :: _ => g.head?
  | _ => none

/-- Items as they come out of the parsing. -/
def Valid (t : CharType) : List Item → Prop
  | [] => True
  | .group g pr next :: r =>
    g ≠ [] ∧ (∃ s, Shape s g) ∧ Letters g ∧ (next = if pr then none else headLetter r) ∧ Valid t r
  | .prolong :: r => Valid t r
  | .mark p m prev :: r => p ≠ prolongMark ∧ findIterationMark t p = some m ∧ PrevOk prev ∧ Valid t r
  | .other p :: r =>
    p ≠ prolongMark ∧ findIterationMark t p = none ∧ findKana t p = none ∧ Valid t r

/-- The rest of `fromKana`: loop and final group. -/
def finish (c : Converter) (t : CharType) (st : FromState) (ks : List Str) : Res Str := do
  let st ← c.fromKanaLoop t st ks
  let (s, _) ← c.processKana t st.kanaGroup st.prevKana
  .ok (st.result ++ s)

/-- Single letters are the only pieces that are found in the maps. -/
theorem piece_mono {t : CharType} (ht : t ≠ .romaji) {p : Str} (hp : IsPiece p) {k : Kana}
    (h : findKana t p = some k) : p = k.str t ∧ k ∈ allKana ∧ k.mono = true := by
  obtain ⟨hk, he⟩ := (found_iff ht).mp h
  refine ⟨he, hk, ?_⟩
  have hl := mono_length hk t
  cases hm : k.mono with
  | true => rfl
  | false =>
    rw [hm] at hl
    simp only [Bool.false_eq_true, if_false] at hl
    rw [← he] at hl
    rcases hp with ⟨b, _, _, rfl⟩ | ⟨c, hc, _, _, rfl | ⟨v, hv, rfl⟩⟩
    · simp at hl
    · have := encodeChar_length hc; omega
    · exfalso
      have hall : ∀ t : CharType, t ≠ .romaji → allKana.all (fun k => k.mono || ((k.str t).drop 3).head? == some 0xe3) = true := by
        intro t ht; cases t
        · decide +kernel
        · decide +kernel
        · exact absurd rfl ht
      have := List.all_eq_true.mp (hall t ht) k hk
      rw [hm, ← he] at this
      simp only [Bool.false_or, beq_iff_eq] at this
      have hv3 := selector_length hv
      have hc3 : (String.utf8EncodeChar c).length = 3 := by
        rw [List.length_append, hv3] at hl; omega
      rw [List.drop_left' hc3] at this
      have hs := (selector_three (a := 0xe3) (b := (String.utf8EncodeChar v)[1]!) (c := (String.utf8EncodeChar v)[2]!)).mpr
      match hv' : String.utf8EncodeChar v, hv3 with
      | [x, y, z], _ =>
        rw [hv'] at this
        simp at this
        subst this
        have := (selector_three (a := 0xe3) (b := y) (c := z)).mpr ⟨v, hv, hv'.symm⟩
        simp at this

theorem other_not_afterN {t : CharType} (ht : t ≠ .romaji) {p : Str} (h : findKana t p = none) :
    p ∉ KT.afterN t := by
  intro hp
  obtain ⟨k, hk, he, _⟩ := afterN_kana hp
  rw [he, found ht hk] at h
  cases h

theorem contains_group {t : CharType} (ht : t ≠ .romaji) {g : List Kana} (hl : Letters g) :
    kanaN.containsKana (chars t g) = true ↔ g = [kanaN] := by
  have l3 : ∀ {k}, k ∈ g → (k.str t).length = 3 := fun hk => mono_length3 (hl _ hk).1 (hl _ hk).2 t
  match g, hl, @l3 with
  | [], _, _ => simp [chars, Kana.containsKana]; decide
  | [k], hl, _ =>
    have : chars t [k] = k.str t := by simp [chars]
    rw [this, containsKana_iff ht kanaN_mem (hl k (by simp)).1]
    simp
  | k :: j :: g, hl, l3 =>
    simp only [List.cons.injEq, reduceCtorEq, and_false, iff_false]
    intro h
    have h1 := l3 (k := k) (by simp)
    have h2 := l3 (k := j) (by simp)
    simp only [Kana.containsKana, Bool.or_eq_true, beq_iff_eq] at h
    have : (chars t (k :: j :: g)).length = 3 := by
      rcases h with h | h <;> (rw [h]; decide)
    simp [chars] at this
    omega

theorem iteration_none {t : CharType} (ht : t ≠ .romaji) {k : Kana} (hk : k ∈ allKana) :
    findIterationMark t (k.str t) = none ∧ k.str t ≠ prolongMark := by
  have h : ∀ t : CharType, t ≠ .romaji → allKana.all (fun k => (findIterationMark t (k.str t)).isNone && k.str t != prolongMark) = true := by
    intro t ht; cases t
    · decide +kernel
    · decide +kernel
    · exact absurd rfl ht
  have := List.all_eq_true.mp (h t ht) k hk
  simp at this; exact this

theorem prolong_none {t : CharType} (ht : t ≠ .romaji) : findKana t prolongMark = none := by
  cases h : findKana t prolongMark with
  | none => rfl
  | some k =>
    obtain ⟨hk, he⟩ := (found_iff ht).mp h
    exact absurd he.symm (iteration_none ht hk).2

theorem mark_none {t : CharType} (ht : t ≠ .romaji) {p : Str} {m : IterationMark}
    (h : findIterationMark t p = some m) : findKana t p = none := by
  cases h1 : findKana t p with
  | none => rfl
  | some k =>
    obtain ⟨hk, he⟩ := (found_iff ht).mp h1
    rw [he, (iteration_none ht hk).1] at h
    cases h

theorem mark_get {m : IterationMark} {prev : Option Kana} (hp : PrevOk prev) (t : CharType)
    (f : ConvertFlags) : ∃ s, m.get t f prev = some s := by
  unfold IterationMark.get
  split
  · exact ⟨_, rfl⟩
  · exact ⟨_, rfl⟩
  · split
    · exact ⟨_, rfl⟩
    · rename_i p
      have hk := hp p rfl
      have hd : allKana.all (fun k => (k.dakuten.getD k) ∈ allKana && (k.plain.getD k) ∈ allKana) = true := by
        decide +kernel
      have := List.all_eq_true.mp hd p hk
      simp only [Bool.and_eq_true, decide_eq_true_eq] at this
      split
      · obtain ⟨b, r, h⟩ := getRomaji_some this.1 f; exact ⟨_, h⟩
      · obtain ⟨b, r, h⟩ := getRomaji_some this.2 f; exact ⟨_, h⟩

/-- `done` with a pending group. -/
theorem doneGroup_group (c : Converter) {t : CharType} (ht : t ≠ .romaji) {g : List Kana} (hg : g ≠ [])
    (hl : Letters g) {st : FromState} (h2 : st.kanaGroup = chars t g) (kana : Str) (dt : DoneType)
    (ns : State) : ∃ p, PrevOk p ∧ c.doneGroup t kana st dt ns = .ok
      { state := ns,
        result := st.result ++ groupOut c t g (dt == .prolong) ++
          (if c.target = .romaji ∧ g = [kanaN] ∧ kana ∈ KT.afterN t then [apostrophe] else []),
        kanaGroup := if dt = .newGroup then kana else [], prevKana := p } := by
  obtain ⟨p, hp, hpo⟩ := group_ok c t hg (letters_mem hl) st.prevKana (dt == .prolong)
  refine ⟨p, hpo, ?_⟩
  unfold doneGroup
  rw [h2, hp, Res.bind_ok]
  simp only [contains_group ht hl]
  split <;> simp_all

/-- `done` without a pending group. -/
theorem doneGroup_empty (c : Converter) {t : CharType} {st : FromState} (h2 : st.kanaGroup = [])
    (kana : Str) (dt : DoneType) (ns : State) : c.doneGroup t kana st dt ns = .ok
      { state := ns, result := st.result ++ (if dt = .prolong then prolongMark else []),
        kanaGroup := if dt = .newGroup then kana else [], prevKana := st.prevKana } := by
  unfold doneGroup processKana
  have hn : kanaN.containsKana [] = false := by decide
  rw [h2]
  cases dt <;> simp [hn]

theorem finish_cons (c : Converter) (t : CharType) (st : FromState) (k : Str) (ks : List Str) :
    c.finish t st (k :: ks) = (c.fromKanaStep t st k).bind fun st => c.finish t st ks := by
  unfold finish
  rw [fromKanaLoop]
  show ((c.fromKanaStep t st k).bind _).bind _ = _
  cases c.fromKanaStep t st k <;> rfl

/-- Every sequence of pieces is parsed into items, and the result is the concatenation of their
outputs. -/
theorem finish_items (c : Converter) {t : CharType} (ht : t ≠ .romaji) : ∀ (ks : List Str),
    (∀ p ∈ ks, IsPiece p) → ∀ (st : FromState) (g : List Kana), Shape st.state g → Letters g →
    st.kanaGroup = chars t g → PrevOk st.prevKana →
    ∃ items, Valid t items ∧ items.flatMap (Item.src t) = g.map (·.str t) ++ ks ∧
      (g ≠ [] → headLetter items = g.head?) ∧
      c.finish t st ks = .ok (st.result ++ items.flatMap (itemOut c t)) := by
  intro ks
  induction ks with
  | nil =>
    intro _ st g hs hl h2 hp
    cases hg : g with
    | nil =>
      rw [hg] at h2
      refine ⟨[], trivial, rfl, by simp, ?_⟩
      simp only [finish, fromKanaLoop, Res.bind_ok, processKana]
      rw [h2]; rfl
    | cons x l =>
      rw [← hg]
      have hne : g ≠ [] := by rw [hg]; simp
      obtain ⟨p, h3, _⟩ := group_ok c t hne (letters_mem hl) st.prevKana false
      refine ⟨[.group g false none], ⟨hne, ⟨_, hs⟩, hl, rfl, trivial⟩, by simp [Item.src],
        fun _ => rfl, ?_⟩
      simp only [finish, fromKanaLoop, Res.bind_ok]
      rw [h2, h3, Res.bind_ok]
      simp [itemOut]
  | cons k ks ih =>
    intro hps st g hs hl h2 hp
    have hpk := hps k List.mem_cons_self
    replace hps := fun p hp => hps p (List.mem_cons_of_mem _ hp)
    rw [finish_cons]
    unfold fromKanaStep
    by_cases hpr : k = prolongMark
    · rw [if_pos hpr]
      by_cases hg : g = []
      · subst hg
        rw [doneGroup_empty c (by rw [h2]; rfl)]
        obtain ⟨items, h3, h4, h5, h6⟩ := ih hps ({ state := .new, result := st.result ++ prolongMark, kanaGroup := [], prevKana := st.prevKana }) [] .nil
          (by intro _ h; cases h) rfl hp
        refine ⟨.prolong :: items, h3, ?_, by simp, ?_⟩
        · simp [Item.src, h4, hpr]
        · simp only [Res.bind, if_true, reduceCtorEq, if_false]
          rw [h6]; simp [itemOut]
      · obtain ⟨p, hpo, h3⟩ := doneGroup_group c ht hg hl h2 k .prolong .new
        rw [h3]
        simp only [Res.bind, reduceCtorEq, if_false]
        have hna : k ∉ KT.afterN t := other_not_afterN ht (hpr ▸ prolong_none ht)
        obtain ⟨items, h4, h5, h6, h7⟩ := ih hps { state := .new, result := st.result ++ groupOut c t g true ++ (if c.target = .romaji ∧ g = [kanaN] ∧ k ∈ KT.afterN t then [apostrophe] else []), kanaGroup := [], prevKana := p } [] .nil
          (by intro _ h; cases h) rfl hpo
        refine ⟨.group g true none :: items, ⟨hg, ⟨_, hs⟩, hl, rfl, h4⟩, ?_, fun _ => rfl, ?_⟩
        · simp [Item.src, h5, hpr]
        · rw [show (DoneType.prolong == DoneType.prolong) = true from rfl, h7]
          simp [itemOut, hna]
    · rw [if_neg hpr]
      split
      · rename_i m hm
        have hna : k ∉ KT.afterN t := other_not_afterN ht (mark_none ht hm)
        by_cases hg : g = []
        · subst hg
          rw [doneGroup_empty c (by rw [h2]; rfl), Res.bind_ok]
          obtain ⟨s, hms⟩ := mark_get (m := m) hp c.target c.flags
          simp only [hms, Res.ofOption, Res.bind_ok]
          obtain ⟨items, h3, h4, h5, h6⟩ := ih hps ({ state := .new, result := st.result ++ [] ++ s, kanaGroup := [], prevKana := st.prevKana }) [] .nil
            (by intro _ h; cases h) rfl hp
          refine ⟨.mark k m st.prevKana :: items, ⟨hpr, hm, hp, h3⟩, ?_, by simp, ?_⟩
          · simp [Item.src, h4]
          · simp only [Res.bind, reduceCtorEq, if_false]
            rw [h6]; simp [itemOut, hms]
        · obtain ⟨p, hpo, h3⟩ := doneGroup_group c ht hg hl h2 k .newEmptyGroup .new
          rw [h3, Res.bind_ok]
          obtain ⟨s, hms⟩ := mark_get (m := m) hpo c.target c.flags
          simp only [hms, Res.ofOption, Res.bind_ok, reduceCtorEq, if_false]
          obtain ⟨items, h4, h5, h6, h7⟩ := ih hps { state := .new, result := st.result ++ groupOut c t g false ++ (if c.target = .romaji ∧ g = [kanaN] ∧ k ∈ KT.afterN t then [apostrophe] else []) ++ s, kanaGroup := [], prevKana := p } [] .nil
            (by intro _ h; cases h) rfl hpo
          have hhead : headLetter (.mark k m p :: items) = none := rfl
          refine ⟨.group g false none :: .mark k m p :: items, ⟨hg, ⟨_, hs⟩, hl, rfl, hpr, hm, hpo, h4⟩, ?_, fun _ => rfl, ?_⟩
          · simp [Item.src, h5]
          · simp only [Res.bind, show (DoneType.newEmptyGroup == DoneType.prolong) = false from rfl]
            rw [h7]; simp [itemOut, hna, hms]
      · rename_i hm
        cases hf : findKana t k with
        | some k' =>
          obtain ⟨he, hk, hmono⟩ := piece_mono ht hpk hf
          subst he
          simp only [Option.isSome_some, if_true]
          rcases processOneKana_cases c ht hs hl hk rfl h2 with ⟨s', h3, h4⟩ | ⟨s', h3, h4⟩
          · rw [h4]
            simp only [Res.bind]
            obtain ⟨items, h5, h6, h7, h8⟩ := ih hps { st with state := s', kanaGroup := chars t (g ++ [k']) } (g ++ [k']) h3
              (by intro j hj; rcases List.mem_append.mp hj with h | h
                  · exact hl j h
                  · simp at h; subst h; exact ⟨hk, hmono⟩) rfl hp
            refine ⟨items, h5, by simp [h6], ?_, by rw [h8]⟩
            intro hg
            rw [h7 (by simp)]
            cases g with
            | nil => exact absurd rfl hg
            | cons _ _ => rfl
          · rw [h4]
            have hlk : Letters [k'] := by intro j hj; simp at hj; subst hj; exact ⟨hk, hmono⟩
            by_cases hg : g = []
            · subst hg
              rw [doneGroup_empty c (by rw [h2]; rfl)]
              simp only [Res.bind, reduceCtorEq, if_false, if_true]
              obtain ⟨items, h5, h6, h7, h8⟩ := ih hps { state := s', result := st.result ++ [], kanaGroup := k'.str t, prevKana := st.prevKana } [k'] h3 hlk (by simp [chars]) hp
              exact ⟨items, h5, by simp [h6], by simp, by rw [h8]; simp⟩
            · obtain ⟨p, hpo, h5⟩ := doneGroup_group c ht hg hl h2 (k'.str t) .newGroup s'
              rw [h5]
              simp only [Res.bind, if_true]
              obtain ⟨items, h6, h7, h8, h9⟩ := ih hps { state := s', result := st.result ++ groupOut c t g false ++ (if c.target = .romaji ∧ g = [kanaN] ∧ k'.str t ∈ KT.afterN t then [apostrophe] else []), kanaGroup := k'.str t, prevKana := p } [k'] h3 hlk (by simp [chars]) hpo
              refine ⟨.group g false (some k') :: items, ⟨hg, ⟨_, hs⟩, hl, ?_, h6⟩, ?_, fun _ => rfl, ?_⟩
              · simp only [Bool.false_eq_true, if_false]; rw [h8 (by simp)]; rfl
              · simp [Item.src, h7]
              · rw [show (DoneType.newGroup == DoneType.prolong) = false from rfl, h9]
                simp [itemOut, mem_afterN ht hk]
        | none =>
          simp only [Option.isSome_none, Bool.false_eq_true, if_false]
          have hna : k ∉ KT.afterN t := other_not_afterN ht hf
          have hout : ∀ st : FromState, (if c.target = .romaji then
              match wideDelimFind k with
              | some n => Res.ok { st with result := st.result ++ [n] }
              | none => .ok { st with result := st.result ++ k }
            else .ok { st with result := st.result ++ k }) =
              .ok { st with result := st.result ++ itemOut c t (.other k) } := by
            intro st
            unfold itemOut
            split
            · split <;> (rename_i h; simp [h])
            · simp
          by_cases hg : g = []
          · subst hg
            rw [doneGroup_empty c (by rw [h2]; rfl), Res.bind_ok]
            refine Exists.imp ?_ (?_ : ∃ items, Valid t items ∧ items.flatMap (Item.src t) = ([] : List Kana).map (·.str t) ++ k :: ks ∧
              (([] : List Kana) ≠ [] → headLetter items = ([] : List Kana).head?) ∧
              c.finish t { state := .new, result := st.result ++ [] ++ itemOut c t (.other k), kanaGroup := [], prevKana := st.prevKana } ks =
                .ok (st.result ++ items.flatMap (itemOut c t)))
            · rintro items ⟨h3, h4, h5, h6⟩
              refine ⟨h3, h4, h5, Eq.trans ?_ h6⟩
              exact congrArg (fun r => Res.bind r (fun st => c.finish t st ks))
                (hout { state := .new, result := st.result ++ [], kanaGroup := [], prevKana := st.prevKana })
            obtain ⟨items, h3, h4, h5, h6⟩ := ih hps ({ state := .new, result := st.result ++ [] ++ itemOut c t (.other k), kanaGroup := [], prevKana := st.prevKana }) [] .nil
              (by intro _ h; cases h) rfl hp
            refine ⟨.other k :: items, ⟨hpr, hm, hf, h3⟩, ?_, by simp, ?_⟩
            · simp [Item.src, h4]
            · rw [h6]; simp
          · obtain ⟨p, hpo, h3⟩ := doneGroup_group c ht hg hl h2 k .newEmptyGroup .new
            rw [h3, Res.bind_ok]
            refine Exists.imp ?_ (?_ : ∃ items, Valid t items ∧ items.flatMap (Item.src t) = g.map (·.str t) ++ k :: ks ∧
              (g ≠ [] → headLetter items = g.head?) ∧
              c.finish t { state := .new, result := st.result ++ groupOut c t g false ++ (if c.target = .romaji ∧ g = [kanaN] ∧ k ∈ KT.afterN t then [apostrophe] else []) ++ itemOut c t (.other k), kanaGroup := [], prevKana := p } ks =
                .ok (st.result ++ items.flatMap (itemOut c t)))
            · rintro items ⟨h3, h4, h5, h6⟩
              refine ⟨h3, h4, h5, Eq.trans ?_ h6⟩
              exact congrArg (fun r => Res.bind r (fun st => c.finish t st ks))
                (hout { state := .new, result := st.result ++ groupOut c t g false ++ (if c.target = .romaji ∧ g = [kanaN] ∧ k ∈ KT.afterN t then [apostrophe] else []), kanaGroup := [], prevKana := p })
            obtain ⟨items, h4, h5, h6, h7⟩ := ih hps { state := .new, result := st.result ++ groupOut c t g false ++ (if c.target = .romaji ∧ g = [kanaN] ∧ k ∈ KT.afterN t then [apostrophe] else []) ++ itemOut c t (.other k), kanaGroup := [], prevKana := p } [] .nil
              (by intro _ h; cases h) rfl hpo
            refine ⟨.group g false none :: .other k :: items, ⟨hg, ⟨_, hs⟩, hl, rfl, hpr, hm, hf, h4⟩, ?_, fun _ => rfl, ?_⟩
            · simp [Item.src, h5]
            · rw [h7]; simp [itemOut, hna]

/-- Parsing of a whole text. -/
theorem fromKana_items (c : Converter) {t : CharType} (ht : t ≠ .romaji) {ks : List Str}
    (h : ∀ p ∈ ks, IsPiece p) :
    ∃ items, Valid t items ∧ items.flatMap (Item.src t) = ks ∧
      c.fromKanaChars t ks = .ok (items.flatMap (itemOut c t)) := by
  obtain ⟨items, h1, h2, _, h3⟩ := finish_items c ht ks h {} [] .nil (by intro _ h; cases h) rfl
    prevOk_none
  exact ⟨items, h1, by simpa using h2, by
    rw [show c.fromKanaChars t ks = c.finish t {} ks from rfl, h3]; simp⟩

end Converter
end KT
