import Verif.Spec.Furigana
import Verif.Model.Furigana
import Verif.Props.Format
import Verif.Props.Utf8
import Verif.Props.Stats
/-!
# Removal of Furigana: C113-C116
-/
namespace KT
open Spec

/-! ## C113: what is removed -/

theorem classMatches_append (a b : List Block) (c : Nat) :
    classMatches (blockRange a ++ blockRange b) c =
      (classMatches (blockRange a) c || classMatches (blockRange b) c) := by
  induction a with
  | nil => simp [blockRange, classMatches]
  | cons x a ih =>
    rw [show blockRange (x :: a) = x.start :: 0x2d :: x.stop :: blockRange a by simp [blockRange]]
    simp only [List.cons_append, classMatches, ih, Bool.or_assoc]

theorem furiganaBase_iff (c : Nat) : furiganaBase c = true ↔ HasReading c := by
  unfold furiganaBase
  rw [classMatches_append, Bool.or_eq_true, (C84_ranges c).1, (C84_ranges c).2.2.2.2]
  unfold HasReading
  constructor
  · rintro ((h | h) | h)
    · exact .inl h
    · exact .inr (.inl h)
    · exact .inr (.inr h)
  · rintro (h | h | h)
    · exact .inl (.inl h)
    · exact .inl (.inr h)
    · exact .inr h

theorem furiganaKana_iff (c : Nat) : furiganaKana c = true ↔ Spec.Kana c := (C84_ranges c).2.1

theorem close_not_kana : ¬ Spec.Kana 0xff09 := by
  simp [Spec.Kana, Hiragana, Katakana]

theorem takeWhile_drop {α : Type} (p : α → Bool) (l : List α) : l.takeWhile p ++ l.drop (l.takeWhile p).length = l := by
  induction l with
  | nil => rfl
  | cons a l ih =>
    rw [List.takeWhile_cons]
    split
    · simp [ih]
    · simp

theorem takeWhile_mem {α : Type} (p : α → Bool) (l : List α) : ∀ a ∈ l.takeWhile p, p a = true := by
  induction l with
  | nil => simp
  | cons b l ih =>
    intro a ha
    rw [List.takeWhile_cons] at ha
    split at ha
    · rename_i h
      rcases List.mem_cons.1 ha with rfl | ha
      · exact h
      · exact ih a ha
    · simp at ha

/-- The reading in brackets at the start of a text. -/
theorem bracketedLength_some (k r : List Nat) (hk : k ≠ []) (h : ∀ c ∈ k, Spec.Kana c) :
    bracketedLength (0xff08 :: (k ++ 0xff09 :: r)) = k.length + 2 := by
  have ht : (k ++ 0xff09 :: r).takeWhile furiganaKana = k := by
    rw [List.takeWhile_append_of_pos (fun c hc => (furiganaKana_iff c).2 (h c hc)), List.takeWhile_cons_of_neg,
      List.append_nil]
    intro hc
    exact close_not_kana ((furiganaKana_iff _).1 hc)
  simp only [bracketedLength, if_true, ht]
  rw [List.drop_left]
  simp [hk]

theorem bracketedLength_pos (s : List Nat) (h : bracketedLength s ≠ 0) :
    ∃ k r, k ≠ [] ∧ (∀ c ∈ k, Spec.Kana c) ∧ s = 0xff08 :: (k ++ 0xff09 :: r) := by
  cases s with
  | nil => exact absurd rfl h
  | cons c r =>
    simp only [bracketedLength] at h
    by_cases hc : c = 0xff08
    · rw [if_pos hc] at h
      have hr := takeWhile_drop furiganaKana r
      cases hd : r.drop (r.takeWhile furiganaKana).length with
      | nil => rw [hd] at h; exact absurd rfl h
      | cons e t =>
        rw [hd] at h
        simp only at h
        by_cases he : r.takeWhile furiganaKana ≠ [] ∧ e = 0xff09
        · refine ⟨r.takeWhile furiganaKana, t, he.1, ?_, ?_⟩
          · intro a ha
            exact (furiganaKana_iff a).1 (takeWhile_mem furiganaKana r a ha)
          · rw [hc, ← he.2, ← hd, hr]
        · rw [if_neg he] at h; exact absurd rfl h
    · rw [if_neg hc] at h; exact absurd rfl h

theorem removeLoop_drop (k : Nat) (s : List Nat) : removeLoop k s = removeLoop 0 (s.drop k) := by
  induction k generalizing s with
  | zero => rfl
  | succ k ih => cases s with
    | nil => rfl
    | cons x r => exact ih r

theorem removeFurigana_start {s r : List Nat} {x : Nat} (h : StartsWithFurigana s x r) :
    removeFurigana s = x :: removeFurigana r := by
  obtain ⟨hx, k, hk, hkana, rfl⟩ := h
  unfold removeFurigana
  rw [removeLoop, if_pos ((furiganaBase_iff x).2 hx), bracketedLength_some k r hk hkana, removeLoop_drop]
  congr 2
  rw [List.drop_succ_cons, List.drop_append]
  simp

theorem removeFurigana_other {r : List Nat} {x : Nat} (h : ∀ y q, ¬ StartsWithFurigana (x :: r) y q) :
    removeFurigana (x :: r) = x :: removeFurigana r := by
  unfold removeFurigana
  rw [removeLoop]
  by_cases hx : furiganaBase x = true
  · rw [if_pos hx]
    by_cases hb : bracketedLength r = 0
    · rw [hb]
    · obtain ⟨k, q, h1, h2, rfl⟩ := bracketedLength_pos r hb
      exact absurd ⟨(furiganaBase_iff x).1 hx, k, h1, h2, rfl⟩ (h x q)
  · rw [if_neg hx]

theorem startsWith_length {s r : List Nat} {x : Nat} (h : StartsWithFurigana s x r) : r.length + 3 < s.length := by
  obtain ⟨_, k, hk, _, rfl⟩ := h
  have : 0 < k.length := List.length_pos_iff.2 hk
  simp
  omega

/-- The regular expression removes the readings in brackets, from left to right, and nothing else. -/
theorem C113_removed (s t : List Nat) : WithoutFurigana s t ↔ t = removeFurigana s := by
  constructor
  · intro h
    induction h with
    | nil => rfl
    | remove h _ ih => rw [removeFurigana_start h, ih]
    | keep h _ ih => rw [removeFurigana_other h, ih]
  · rintro rfl
    induction hn : s.length using Nat.strongRecOn generalizing s with
    | ind n ih =>
      cases s with
      | nil => exact .nil
      | cons x r =>
        by_cases h : ∃ y q, StartsWithFurigana (x :: r) y q
        · obtain ⟨y, q, h⟩ := h
          rw [removeFurigana_start h]
          exact .remove h (ih q.length (by have := startsWith_length h; omega) q rfl)
        · have h : ∀ y q, ¬ StartsWithFurigana (x :: r) y q := fun y q e => h ⟨y, q, e⟩
          rw [removeFurigana_other h]
          exact .keep h (ih r.length (by simp at hn; omega) r rfl)

/-- Each character that isn't kana or a bracket is kept, in order. -/
theorem C113_kept (s : List Nat) :
    (removeFurigana s).Sublist s ∧
    ∀ c, ¬ Spec.Kana c → c ≠ 0xff08 → c ≠ 0xff09 → (removeFurigana s).count c = s.count c := by
  have h := (C113_removed s _).2 rfl
  generalize removeFurigana s = t at h
  induction h with
  | nil => exact ⟨List.Sublist.refl _, fun _ _ _ _ => rfl⟩
  | @remove s x r t h _ ih =>
    obtain ⟨_, k, _, hk, rfl⟩ := h
    refine ⟨?_, ?_⟩
    · refine .cons_cons _ (.cons _ ?_)
      exact (List.Sublist.cons _ ih.1).trans (List.sublist_append_right _ _)
    · intro c h1 h2 h3
      have : k.count c = 0 := List.count_eq_zero.2 fun hc => h1 (hk c hc)
      rw [List.count_cons, List.count_cons, List.count_cons, List.count_append, List.count_cons, this, ih.2 c h1 h2 h3]
      have e2 : ((0xff08 : Nat) == c) = false := by simpa using Ne.symm h2
      have e3 : ((0xff09 : Nat) == c) = false := by simpa using Ne.symm h3
      rw [e2, e3]
      simp
  | keep _ _ ih =>
    refine ⟨.cons_cons _ ih.1, ?_⟩
    intro c h1 h2 h3
    rw [List.count_cons, List.count_cons, ih.2 c h1 h2 h3]

theorem hasFurigana_cons {x : Nat} {r : List Nat} (h : HasFurigana r) : HasFurigana (x :: r) := by
  obtain ⟨a, b, y, q, rfl, h⟩ := h
  exact ⟨x :: a, b, y, q, rfl, h⟩

/-- The text is unchanged exactly if it has no Furigana. -/
theorem C113_unchanged (s : List Nat) : removeFurigana s = s ↔ ¬ HasFurigana s := by
  have key : ∀ s t, WithoutFurigana s t → (¬ HasFurigana s → t = s) ∧ (HasFurigana s → t.length < s.length) ∧
      t.length ≤ s.length := by
    intro s t h
    induction h with
    | nil =>
      refine ⟨fun _ => rfl, ?_, Nat.le_refl _⟩
      rintro ⟨a, b, x, r, e, _, k, _, _, rfl⟩
      simp at e
    | remove h _ ih =>
      have := startsWith_length h
      refine ⟨fun hn => absurd ⟨[], _, _, _, rfl, h⟩ hn, fun _ => ?_, ?_⟩ <;> simp <;> omega
    | @keep x r t h _ ih =>
      refine ⟨fun hn => by rw [ih.1 fun e => hn (hasFurigana_cons e)], ?_, by simpa using ih.2.2⟩
      rintro ⟨a, b, y, q, e, hs⟩
      cases a with
      | nil => rw [List.nil_append] at e; rw [← e] at hs; exact absurd hs (h y q)
      | cons c a =>
        rw [List.cons_append] at e
        injection e with e1 e2
        have := ih.2.1 ⟨a, b, y, q, e2, hs⟩
        simpa using this
  have h := key s _ ((C113_removed s _).2 rfl)
  constructor
  · intro e hf
    have := h.2.1 hf
    rw [e] at this
    omega
  · exact h.1

/-- No Furigana is left. -/
def C113_statement : Prop := ∀ s, ¬ HasFurigana (removeFurigana s)

/-- A second reading in brackets is kept: 漢（かん）（ハン） becomes 漢（ハン）. -/
theorem C113_violated : ¬ C113_statement := by
  intro h
  have e := (C113_unchanged _).2 (h [0x6f22, 0xff08, 0x304b, 0xff09, 0xff08, 0x30cf, 0xff09])
  exact absurd e (by decide)

theorem without_kana {r k q : List Nat} (h : WithoutFurigana r (k ++ 0xff09 :: q)) (hk : ∀ c ∈ k, Spec.Kana c) :
    ∃ q', r = k ++ 0xff09 :: q' := by
  induction k generalizing r with
  | nil =>
    cases h with
    | remove h _ => obtain ⟨_, k, _, _, rfl⟩ := h; exact ⟨_, rfl⟩
    | keep _ _ => exact ⟨_, rfl⟩
  | cons c k ih =>
    cases h with
    | remove h _ =>
      have h1 := h.1
      have h2 := hk c (by simp)
      simp only [HasReading, Spec.Kanji, Spec.Kana, CommonKanji, RareKanji, Hiragana, Katakana] at h1 h2
      omega
    | keep _ h =>
      obtain ⟨q', rfl⟩ := ih h fun c hc => hk c (by simp [hc])
      exact ⟨q', rfl⟩

theorem without_head {r t : List Nat} {x : Nat} (h : WithoutFurigana r (x :: t)) : ∃ r', r = x :: r' := by
  cases h with
  | remove h _ => obtain ⟨_, k, _, _, rfl⟩ := h; exact ⟨_, rfl⟩
  | keep _ _ => exact ⟨_, rfl⟩

/-- No Furigana is left in a text where no bracket is directly followed by an opening one. -/
theorem C113_complete_partial (s : List Nat) (hs : ∀ b, b = 0xff08 ∨ b = 0xff09 → ¬ [b, 0xff08] <:+: s) :
    ¬ HasFurigana (removeFurigana s) := by
  have h := (C113_removed s _).2 rfl
  generalize removeFurigana s = t at h
  induction h with
  | nil =>
    rintro ⟨a, b, x, r, e, _, k, _, _, rfl⟩
    simp at e
  | @remove s x r t h ht ih =>
    obtain ⟨hx, k, hk0, hk, rfl⟩ := h
    have hr : ∀ b, b = 0xff08 ∨ b = 0xff09 → ¬ [b, 0xff08] <:+: r := by
      rintro b hb ⟨u, v, rfl⟩
      exact hs b hb ⟨x :: 0xff08 :: (k ++ 0xff09 :: u), v, by simp⟩
    rintro ⟨a, b, y, q, e, hy⟩
    cases a with
    | cons c a =>
      rw [List.cons_append] at e
      injection e with e1 e2
      exact ih hr ⟨a, b, y, q, e2, hy⟩
    | nil =>
      obtain ⟨_, k', _, _, rfl⟩ := hy
      rw [List.nil_append] at e
      injection e with e1 e2
      rw [e2] at ht
      obtain ⟨r', rfl⟩ := without_head ht
      exact hs 0xff09 (.inr rfl) ⟨x :: 0xff08 :: k, r', by simp⟩
  | @keep x r t h ht ih =>
    have hr : ∀ b, b = 0xff08 ∨ b = 0xff09 → ¬ [b, 0xff08] <:+: r := by
      rintro b hb ⟨u, v, rfl⟩
      exact hs b hb ⟨x :: u, v, by simp⟩
    rintro ⟨a, b, y, q, e, hy⟩
    cases a with
    | cons c a =>
      rw [List.cons_append] at e
      injection e with e1 e2
      exact ih hr ⟨a, b, y, q, e2, hy⟩
    | nil =>
      obtain ⟨hx, k, hk0, hk, rfl⟩ := hy
      rw [List.nil_append] at e
      injection e with e1 e2
      rw [e2] at ht
      cases ht with
      | remove h1 h2 =>
        obtain ⟨_, k', _, _, rfl⟩ := h1
        exact hs 0xff08 (.inl rfl) ⟨[x], k' ++ 0xff09 :: _, by simp; rfl⟩
      | keep h1 h2 =>
        obtain ⟨q', rfl⟩ := without_kana h2 hk
        exact h y q' ⟨hx, k, hk0, hk, by rw [e1]⟩

/-! ## Texts as bytes -/

theorem furiganaReplace_ok (s : Str) : furiganaReplace s = .ok (furiganaFind s) := by
  obtain ⟨t, h⟩ := C03_total (removeFurigana (decode s))
  unfold furiganaFind furiganaReplace
  rw [h]

theorem removeFurigana_map (cs : List Char) : ∃ ds : List Char, ds.Sublist cs ∧
    removeFurigana (cs.map Char.toNat) = ds.map Char.toNat := by
  obtain ⟨ds, h1, h2⟩ := List.sublist_map_iff.1 (C113_kept (cs.map Char.toNat)).1
  exact ⟨ds, h1, h2⟩

/-- For every text the result is the encoding of the characters that are left. -/
theorem C113_text (cs : List Char) (h0 : ∀ c ∈ cs, c ≠ Char.ofNat 0) : ∃ ds : List Char, ds.Sublist cs ∧
    WithoutFurigana (cs.map Char.toNat) (ds.map Char.toNat) ∧
    furiganaReplace (utf8Encode cs) = .ok (utf8Encode ds) := by
  obtain ⟨ds, h1, h2⟩ := removeFurigana_map cs
  refine ⟨ds, h1, (C113_removed _ _).2 h2.symm, ?_⟩
  unfold furiganaReplace
  rw [decode_utf8Encode h0, h2, C03_standard_encoding]

example : furiganaReplace (u8!"子供たちは茫漠（ぼうばく）と見霽（みはる）かす") = .ok (u8!"子供たちは茫漠と見霽かす") := by decide +kernel
example : furiganaReplace (u8!"いぬ（いぬ）（イヌ）犬（いぬ") = .ok (u8!"いぬ（いぬ）犬（いぬ") := by decide +kernel

/-! ## C114: the number of lines with Furigana -/

/-- A text that has no NUL and is well-formed. -/
def CleanText (s : Str) : Prop := ∃ cs : List Char, (∀ c ∈ cs, c ≠ Char.ofNat 0) ∧ s = utf8Encode cs

theorem utf8Encode_map_inj {cs ds : List Char} (hc : ∀ c ∈ cs, c ≠ Char.ofNat 0) (hd : ∀ c ∈ ds, c ≠ Char.ofNat 0)
    (h : utf8Encode cs = utf8Encode ds) : cs.map Char.toNat = ds.map Char.toNat := by
  rw [← decode_utf8Encode hc, ← decode_utf8Encode hd, h]

/-- A well-formed text is changed exactly if it has Furigana. -/
theorem furiganaFind_eq_iff {s : Str} (hs : CleanText s) : furiganaFind s = s ↔ ¬ HasFurigana (decode s) := by
  obtain ⟨cs, h0, rfl⟩ := hs
  obtain ⟨ds, h1, h2, h3⟩ := C113_text cs h0
  have e : furiganaFind (utf8Encode cs) = utf8Encode ds := by
    have := furiganaReplace_ok (utf8Encode cs)
    rw [h3] at this
    injection this with this
    exact this.symm
  rw [e, decode_utf8Encode h0, ← C113_unchanged, ← (C113_removed _ _).1 h2]
  constructor
  · intro h
    exact utf8Encode_map_inj (fun c hc => h0 c (h1.subset hc)) h0 h
  · intro h
    have : utf8Encode ds = utf8Encode cs := by
      have e1 := C03_standard_encoding ds
      rw [h, C03_standard_encoding cs] at e1
      injection e1 with e1
      exact e1.symm
    exact this

open Classical in
/-- The number shown as "Furigana Removed" is the number of lines with Furigana. -/
def C114_statement : Prop := ∀ (allow : Str → Bool) (calls : List (Str × Option Str)) (st : CountState) (n : Nat),
  CountState.addAll (some furiganaFind) allow {} calls = some (st, n) →
  st.replacements = calls.countP fun c => decide (HasFurigana (decode c.1))

/-- A line with a byte that isn't UTF-8 is counted too: the byte is replaced by U+FFFD. -/
theorem C114_violated : ¬ C114_statement := by
  intro h
  have h1 := h (fun _ => true) [([0xff], none)] _ _ (by rfl)
  have h2 : ¬ HasFurigana (decode [0xff]) := (C113_unchanged _).1 (by decide +kernel)
  simp only [List.countP_cons, List.countP_nil, h2] at h1
  revert h1
  decide +kernel

open Classical in
/-- For well-formed lines without NUL it is the number of lines with Furigana. -/
theorem C114_partial (allow : Str → Bool) (calls : List (Str × Option Str)) (hc : ∀ c ∈ calls, CleanText c.1)
    (st : CountState) (n : Nat) (h : CountState.addAll (some furiganaFind) allow {} calls = some (st, n)) :
    st.replacements = calls.countP fun c => decide (HasFurigana (decode c.1)) := by
  rw [(C50_counters _ _ _ _ _ h).2.2.2]
  apply List.countP_congr
  intro c hm
  have := furiganaFind_eq_iff (hc c hm)
  simp only [Option.getD_some, bne_iff_ne, ne_eq, decide_eq_true_eq]
  rw [this, Classical.not_not]

example : CleanText (u8!"漢（かん）字") := ⟨['漢', '（', 'か', 'ん', '）', '字'], by decide, by decide +kernel⟩
example : HasFurigana (decode (u8!"漢（かん）字")) := by
  apply Classical.byContradiction
  intro h
  exact absurd ((C113_unchanged _).2 h) (by decide +kernel)

/-! ## C115: reported errors -/

/-- The number of errors shown for a text (counted with the Hiragana, where Furigana is removed) is the number of errors
of the text. -/
def C115_statement : Prop := ∀ (allow : Str → Bool) (calls : List (Str × Option Str)) (st : CountState) (n : Nat),
  CountState.addAll (some furiganaFind) allow {} calls = some (st, n) →
  st.errors = (calls.map fun c => (endState none c.1).errors).sum

/-- A byte that isn't UTF-8 is an error, but it is never shown. -/
theorem C115_violated : ¬ C115_statement := by
  intro h
  have h1 := h (fun _ => true) [([0xff], none)] _ _ (by rfl)
  revert h1
  decide +kernel

/-- Bytes that aren't UTF-8 are never shown as errors: the errors shown for any texts are those of well-formed texts, so
only stray combining marks and variation selectors are counted. -/
theorem C115_wellFormed (s : Str) : WellFormed (furiganaFind s) := by
  have hs : ∀ c ∈ removeFurigana (decode s), IsScalar c := fun c hc =>
    (decodes_decode s).scalar c ((C113_kept (decode s)).1.subset hc)
  have h : toUtf8 (removeFurigana (decode s)) = .ok (furiganaFind s) := furiganaReplace_ok s
  rw [toUtf8_scalars hs] at h
  injection h with h
  rw [← h]
  clear h
  generalize removeFurigana (decode s) = l at hs
  induction l with
  | nil => exact ⟨[], rfl⟩
  | cons c l ih =>
    obtain ⟨ds, hd⟩ := ih fun x hx => hs x (by simp [hx])
    refine ⟨charOf c (hs c (by simp)) :: ds, ?_⟩
    rw [List.flatMap_cons, hd, utf8Encode, utf8Encode, List.flatMap_cons, encodeChar_charOf]

/-- The errors of well-formed lines without Furigana are shown. -/
theorem C115_partial (allow : Str → Bool) (calls : List (Str × Option Str))
    (hc : ∀ c ∈ calls, CleanText c.1 ∧ ¬ HasFurigana (decode c.1))
    (st : CountState) (n : Nat) (h : CountState.addAll (some furiganaFind) allow {} calls = some (st, n)) :
    st.errors = (calls.map fun c => (endState none c.1).errors).sum := by
  rw [(C50_counters _ _ _ _ _ h).1]
  congr 1
  apply List.map_congr_left
  intro c hm
  obtain ⟨h1, h2⟩ := hc c hm
  simp only [endState, Option.getD_some, Option.getD_none, id_eq]
  rw [(furiganaFind_eq_iff h1).2 h2]

/-! ## C116: verbose output -/

/-- The lines that are changed, with the changed version. -/
def changedLines (find : Str → Str) (lines : List Str) : List (Str × Str) :=
  (lines.map fun s => (s, find s)).filter fun p => p.2 ≠ p.1

/-- Line number `i` with its changed version below it. -/
def changeText (i : Nat) (p : Str × Str) : Str :=
  u8!"  " ++ toDec i ++ u8!" : " ++ p.1 ++ u8!"\n" ++ List.replicate ((toDec i).length + 3) 0x20 ++ u8!": " ++ p.2 ++ u8!"\n"

/-- Numbered changes, starting with number `i + 1`. -/
def changesText (i : Nat) (ps : List (Str × Str)) : Str :=
  (ps.zipIdx (i + 1)).flatMap fun p => changeText p.2 p.1

/-- The heading for a file. -/
def tagText (name : Str) : Str := u8!"Tag '" ++ name ++ u8!"'\n"

/-- What is shown for files (names and lines), with `i` changes shown before. -/
def verboseText (find : Str → Str) : Nat → List (Str × List Str) → Str
  | _, [] => []
  | i, (name, lines) :: r =>
    let ps := changedLines find lines
    (if ps = [] then [] else tagText name ++ changesText i ps) ++ verboseText find (i + ps.length) r

theorem changesText_cons (i : Nat) (p : Str × Str) (ps : List (Str × Str)) :
    changesText i (p :: ps) = changeText (i + 1) p ++ changesText (i + 1) ps := by
  simp [changesText, List.zipIdx_cons]

theorem debug_add (st : DebugState) (s n : Str) (t : Str) (h : n ≠ s) :
    st.add s n (some t) = ⟨st.replacements + 1, t, st.out ++ (if t ≠ st.lastReplaceTag then tagText t else []) ++
        changeText (st.replacements + 1) (s, n)⟩ := by
  have hw : setwRight (Int.ofNat ((toDec (st.replacements + 1)).length + 5)) (u8!": ") =
      List.replicate ((toDec (st.replacements + 1)).length + 3) 0x20 ++ u8!": " := by
    unfold setwRight
    congr 2
    simp
    omega
  unfold DebugState.add
  rw [if_neg h]
  by_cases ht : t ≠ st.lastReplaceTag
  · simp only [if_pos ht, hw, changeText, tagText]
    simp [List.append_assoc]
  · have ht' : t = st.lastReplaceTag := Classical.not_not.1 ht
    simp only [if_neg ht, hw, changeText]
    simp [List.append_assoc, ht']

theorem debug_file (find : Str → Str) (t : Str) (lines : List Str) : ∀ st : DebugState,
    let ps := changedLines find lines
    st.addAll find (lines.map fun s => (s, some t)) =
      { replacements := st.replacements + ps.length
        lastReplaceTag := if ps = [] then st.lastReplaceTag else t
        out := st.out ++ (if ps = [] ∨ t = st.lastReplaceTag then [] else tagText t) ++
          changesText st.replacements ps } := by
  induction lines with
  | nil => intro st; simp [changedLines, DebugState.addAll, changesText]
  | cons s lines ih =>
    intro st
    simp only [List.map_cons, DebugState.addAll, List.foldl_cons]
    have ih := ih (st.add s (find s) (some t))
    simp only [DebugState.addAll] at ih
    rw [ih]
    by_cases h : find s = s
    · have e : changedLines find (s :: lines) = changedLines find lines := by simp [changedLines, h]
      rw [e]
      unfold DebugState.add
      rw [if_pos h]
    · have e : changedLines find (s :: lines) = (s, find s) :: changedLines find lines := by simp [changedLines, h]
      rw [e, debug_add _ _ _ _ h, changesText_cons]
      by_cases ht : t = st.lastReplaceTag
      · simp [ht, List.append_assoc, Nat.add_assoc, Nat.add_comm 1]
      · simp [ht, List.append_assoc, Nat.add_assoc, Nat.add_comm 1]

/-- With the verbose option every changed line is shown below the name of its file, with its number, as it was and as it
is used. -/
def C116_statement : Prop := ∀ (find : Str → Str) (files : List (Str × List Str)), (∀ f ∈ files, f.1 ≠ []) →
  (DebugState.addAll find {} (files.flatMap fun f => f.2.map fun s => (s, some f.1))).out = verboseText find 0 files

/-- There is one heading for files of the same name in different directories. -/
theorem C116_violated : ¬ C116_statement := by
  intro h
  have := h (fun _ => []) [(u8!"x", [u8!"a"]), (u8!"x", [u8!"b"])] (by decide)
  exact absurd this (by decide)

/-- It holds if no name is used twice. -/
theorem C116_partial (find : Str → Str) (files : List (Str × List Str)) (hn : (files.map (·.1)).Nodup)
    (h0 : ∀ f ∈ files, f.1 ≠ []) :
    (DebugState.addAll find {} (files.flatMap fun f => f.2.map fun s => (s, some f.1))).out = verboseText find 0 files := by
  have key : ∀ (files : List (Str × List Str)) (st : DebugState), (files.map (·.1)).Nodup →
      (∀ f ∈ files, f.1 ≠ st.lastReplaceTag) →
      (st.addAll find (files.flatMap fun f => f.2.map fun s => (s, some f.1))).out =
        st.out ++ verboseText find st.replacements files := by
    intro files
    induction files with
    | nil => intro st _ _; simp [verboseText, DebugState.addAll]
    | cons f r ih =>
      intro st hn hl
      obtain ⟨name, lines⟩ := f
      rw [List.map_cons, List.nodup_cons] at hn
      have happ : ∀ a b, st.addAll find (a ++ b) = (st.addAll find a).addAll find b := by
        intro a b; simp [DebugState.addAll]
      rw [List.flatMap_cons, happ]
      have hf := debug_file find name lines st
      simp only at hf
      rw [hf]
      have hne : name ≠ st.lastReplaceTag := hl (name, lines) (by simp)
      rw [ih _ hn.2]
      · rw [verboseText]
        by_cases hp : changedLines find lines = []
        · simp [hp, changesText]
        · simp [hp, hne, List.append_assoc]
      · intro g hg
        by_cases hp : changedLines find lines = []
        · simp only [hp, if_true]
          exact hl g (by simp [hg])
        · simp only [hp, if_false]
          intro e
          exact hn.1 (List.mem_map.2 ⟨g, hg, e⟩)
  have := key files {} hn (fun f hf => h0 f hf)
  simpa using this

example : (DebugState.addAll furiganaFind {} [(u8!"山", some (u8!"a.txt")), (u8!"山（やま）", some (u8!"a.txt"))]).out =
    u8!"Tag 'a.txt'\n  1 : 山（やま）\n    : 山\n" := by decide +kernel

end KT
