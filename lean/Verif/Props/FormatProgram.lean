import Verif.Spec.FormatProgram
import Verif.Props.StatsText
/-!
# kanjiFormat from its arguments to its output (C177), and its output read by kanjiStats (C178)
-/
namespace KT
open Spec

/-! ## C177 -/

theorem decode_enc_chars {l : List Char} (h : ∀ c ∈ l, c ≠ Char.ofNat 0) : decode (utf8Encode l) = l.map Char.toNat :=
  decode_utf8Encode h

theorem endsWithKanji_iff (a : List Char) (h : ∀ c ∈ a, c ≠ Char.ofNat 0) :
    endsWithKanji (utf8Encode a) = true ↔ LastIsKanji a := by
  unfold endsWithKanji LastIsKanji
  rw [decode_enc_chars h, List.getLast?_map]
  cases a.getLast? with
  | none => simp
  | some c => simp only [Option.map_some, (C84_ranges c.toNat).1, Option.some.injEq, exists_eq_left']

theorem allKanaLine_iff (b : List Char) (h : ∀ c ∈ b, c ≠ Char.ofNat 0) :
    allKanaLine (utf8Encode b) = true ↔ OnlyKana b := by
  unfold allKanaLine OnlyKana
  rw [decode_enc_chars h]
  simp only [List.isEmpty_map, Bool.and_eq_true, Bool.not_eq_true', List.isEmpty_eq_false_iff, List.all_map,
    List.all_eq_true, Function.comp_apply, (C84_ranges _).2.1]

theorem formatted_text : ∀ lines : List (List Char), (∀ l ∈ lines, ∀ c ∈ l, c ≠ Char.ofNat 0) →
    formatted (lines.map utf8Encode) = utf8Encode (withReadings lines)
  | [], _ => by simp [formatted, withReadings, utf8Encode]
  | [a], _ => by
    simp only [List.map_cons, List.map_nil, formatted, withReadings, utf8Encode, List.flatMap_append]
    rfl
  | a :: b :: r, h => by
    have h1 := formatted_text r fun l hl => h l (by simp [hl])
    have h2 := formatted_text (b :: r) fun l hl => h l (List.mem_cons_of_mem _ hl)
    have e : (endsWithKanji (utf8Encode a) = true ∧ allKanaLine (utf8Encode b) = true) ↔ ReadingOf a b := by
      rw [endsWithKanji_iff a (h a (by simp)), allKanaLine_iff b (h b (by simp)), ReadingOf]
    rw [List.map_cons, List.map_cons, formatted, withReadings]
    by_cases hr : ReadingOf a b
    · rw [if_pos (e.2 hr), if_pos hr, h1]
      simp only [utf8Encode, List.flatMap_append]
      rfl
    · rw [if_neg (fun x => hr (e.1 x)), if_neg hr]
      rw [List.map_cons] at h2
      rw [h2]
      simp only [utf8Encode, List.flatMap_append]
      rfl

/-- The lines of a text are found. -/
theorem fields_fileText (lines : List (List Char)) (h : ∀ l ∈ lines, '\n' ∉ l) :
    fields 0x0a (fileText lines) = lines.map utf8Encode := by
  induction lines with
  | nil => rfl
  | cons l lines ih =>
    have ih := ih fun x hx => h x (by simp [hx])
    have e : fileText (l :: lines) = utf8Encode l ++ 0x0a :: fileText lines := by
      simp only [fileText, List.flatMap_cons, utf8Encode, List.flatMap_append, List.append_assoc]
      rfl
    have hl : (0x0a : UInt8) ∉ utf8Encode l := by
      intro hm
      obtain ⟨c, hc, hb⟩ := List.mem_flatMap.1 hm
      rcases encodeChar_bytes c with ⟨h1, _⟩ | ⟨_, _, h3⟩
      · exact h l (by simp) (by rwa [h1] at hc)
      · exact h3 hb
    rw [e, fields, List.map_cons, ← ih]
    cases hn : utf8Encode l with
    | nil => rfl
    | cons b t =>
      rw [← hn, getlines_piece _ (by rw [hn]; simp) hl]
      simp only [getlines, if_true, fields, Option.getD_none, List.nil_append]

/-- The text that is written for a text whose last line doesn't end with a kanji. -/
theorem C177_text (lines : List (List Char)) (h : ∀ l ∈ lines, ∀ c ∈ l, c ≠ Char.ofNat 0 ∧ c ≠ '\n')
    (hlast : ∀ l, lines.getLast? = some l → ¬ LastIsKanji l) :
    formatFile (fileText lines) = utf8Encode (withReadings lines) := by
  have h0 : ∀ l ∈ lines, ∀ c ∈ l, c ≠ Char.ofNat 0 := fun l hl c hc => (h l hl c hc).1
  rw [C63_exact_partial, fields_fileText lines fun l hl hc => (h l hl _ hc).2 rfl, ← formatted_text lines h0]
  congr 1
  unfold keptLines
  rw [List.getLast?_map]
  cases hl : lines.getLast? with
  | none =>
    rw [List.getLast?_eq_none_iff.1 hl]
    rfl
  | some l =>
    have : ¬ endsWithKanji (utf8Encode l) = true := by
      rw [endsWithKanji_iff l (h0 l (List.mem_of_getLast? hl))]
      exact hlast l hl
    simp [this]

/-- From the command line to the output and the exit code. -/
theorem C177_main (fs : Str → Option Node) (opens : Str → Bool) (argv : List Str) (hn : argv.length < 65536) :
    mainFormat fs opens argv =
      formatProgram (fun f => (regularFile (fs f)).map fun t => if opens f then t else []) formatFile argv := by
  unfold mainFormat argsWhy
  rw [if_neg (by omega)]
  match argv with
  | [] => rfl
  | [_] => rfl
  | _ :: f :: r =>
    rw [if_neg (by simp)]
    simp only [runFormat, formatProgram]
    cases regularFile (fs f) with
    | none => rfl
    | some t => rfl

/-- What can be formatted: a regular file or a link that leads to one, and nothing else. -/
theorem C177_file (n : Option Node) (t : Str) :
    regularFile n = some t ↔ n = some (.file t) ∨ n = some (.link (some (.file t))) := by
  unfold regularFile
  split <;> simp_all

/-- There are always at most 65535 arguments, otherwise the program ends with a message. -/
theorem C177_arguments (fs : Str → Option Node) (opens : Str → Bool) (argv : List Str) (hn : 65536 ≤ argv.length) :
    mainFormat fs opens argv = ([], u8!"argc " ++ toDec argv.length ++ u8!" is greater than 65535\n", 1) := by
  unfold mainFormat argsWhy
  rw [if_pos (by omega)]
  simp only [List.append_assoc]
  rfl

/-! ## C178 -/

/-- A line of the output, and the line without its readings. -/
inductive Printed : List Char → List Char → Prop
  | last {a} : '（' ∉ a → Printed a a
  | reading {a b p q} : '（' ∉ a → ReadingOf a b → Printed p q → Printed (a ++ '（' :: (b ++ '）' :: p)) (a ++ q)

theorem without_prefix {r t : List Nat} (h : WithoutFurigana r t) (hr : r.head? ≠ some 0xff08) : ∀ a : List Nat,
    0xff08 ∉ a → WithoutFurigana (a ++ r) (a ++ t) := by
  intro a
  induction a with
  | nil => intro _; exact h
  | cons x a ih =>
    intro ha
    refine .keep ?_ (ih fun hm => ha (by simp [hm]))
    rintro y q ⟨_, k, _, _, e⟩
    injection e with _ e
    cases a with
    | nil =>
      have e : r = _ := e
      rw [e] at hr
      exact hr rfl
    | cons z a =>
      injection e with e _
      exact ha (by simp [e])

theorem bracket_toNat {a : List Char} (h : '（' ∉ a) : 0xff08 ∉ a.map Char.toNat := by
  intro hm
  obtain ⟨c, hc, hn⟩ := List.mem_map.1 hm
  exact h (by rwa [show c = '（' from Char.toNat_inj.mp (by rw [hn]; rfl)] at hc)

theorem printed_without {p q : List Char} (h : Printed p q) :
    WithoutFurigana (p.map Char.toNat) (q.map Char.toNat) := by
  induction h with
  | @last a ha =>
    rw [C113_removed, Eq.comm, C113_unchanged]
    exact no_furigana a ha
  | @reading a b p q ha hr _ ih =>
    obtain ⟨⟨k, hk1, hk2⟩, hb1, hb2⟩ := hr
    obtain ⟨a', rfl⟩ : ∃ a', a = a' ++ [k] := List.getLast?_eq_some_iff.1 hk1
    simp only [List.append_assoc, List.map_append, List.map_cons, List.map_nil]
    refine without_prefix ?_ ?_ _ (bracket_toNat fun hm => ha (by simp [hm]))
    · refine .remove (r := p.map Char.toNat) ⟨?_, b.map Char.toNat, by simpa using hb1, ?_, rfl⟩ ih
      · rcases hk2 with h | h
        · exact .inl h
        · exact .inr (.inl h)
      · intro c hc
        obtain ⟨d, hd, rfl⟩ := List.mem_map.1 hc
        exact hb2 d hd
    · intro e
      rw [List.singleton_append, List.head?_cons] at e
      have e := Option.some.inj e
      exact ha (by rw [show k = '（' from Char.toNat_inj.mp (by rw [e]; rfl)]; simp)

theorem printed_find {p q : List Char} (h : Printed p q) (h0 : ∀ c ∈ p, c ≠ Char.ofNat 0) :
    furiganaFind (utf8Encode p) = utf8Encode q := by
  have := (C113_removed _ _).1 (printed_without h)
  rw [furiganaFind, furiganaReplace, decode_enc_chars h0, ← this, C03_standard_encoding]

/-- Where the bytes of a bracket are there is a bracket, and the parts before and after it are texts. -/
theorem bracket_split (cs : List Char) : ∀ a b : Str, a ++ u8!"（" ++ b = utf8Encode cs →
    ∃ c d, cs = c ++ '（' :: d ∧ a = utf8Encode c ∧ b = utf8Encode d := by
  induction cs with
  | nil => intro a b e; simp [utf8Encode] at e
  | cons c cs ih =>
    intro a b e
    have e1 : a ++ u8!"（" ++ b = String.utf8EncodeChar c ++ utf8Encode cs := e
    rw [List.append_assoc, List.append_eq_append_iff] at e1
    have later : ∀ c', c' ++ u8!"（" ++ b = utf8Encode cs → a = String.utf8EncodeChar c ++ c' →
        ∃ c'' d, c :: cs = c'' ++ '（' :: d ∧ a = utf8Encode c'' ∧ b = utf8Encode d := by
      intro c' e2 e3
      obtain ⟨x, y, h1, h2, h3⟩ := ih c' b e2
      refine ⟨c :: x, y, by rw [h1]; rfl, ?_, h3⟩
      rw [e3, h2]
      rfl
    rcases e1 with ⟨a', h1, h2⟩ | ⟨c', h1, h2⟩
    · cases a with
      | nil =>
        have h3 : String.utf8EncodeChar '（' ++ b = String.utf8EncodeChar c ++ utf8Encode cs := by
          rw [h1]; exact h2
        obtain ⟨h4, h5⟩ := prefix_unique h3
        exact ⟨[], cs, by rw [h4]; rfl, rfl, h5⟩
      | cons x a =>
        cases a' with
        | nil =>
          refine later [] (by simpa using h2) ?_
          rw [h1]
          simp
        | cons y a' =>
          exfalso
          have hy : y = 0xef := by
            have := congrArg List.head? h2
            simpa using this.symm
          have := encodeChar_tail c y (by rw [h1]; simp)
          rw [hy] at this
          exact absurd this (by decide)
    · exact later c' (by rw [List.append_assoc]; exact h2.symm) h1

theorem printed_closed {p q : List Char} (h : Printed p q) : ∀ c d, p = c ++ '（' :: d → '）' ∈ d := by
  induction h with
  | @last a ha => intro c d e; exact absurd (by rw [e]; simp) ha
  | @reading a b p q ha hr _ ih =>
    intro c d e
    rw [List.append_eq_append_iff] at e
    rcases e with ⟨a', h1, h2⟩ | ⟨c', h1, h2⟩
    · cases a' with
      | nil =>
        simp only [List.nil_append, List.cons.injEq, true_and] at h2
        rw [← h2]; simp
      | cons x a' =>
        simp only [List.cons_append, List.cons.injEq] at h2
        obtain ⟨_, h2⟩ := h2
        rw [List.append_eq_append_iff] at h2
        rcases h2 with ⟨b', h3, h4⟩ | ⟨b', h3, h4⟩
        · cases b' with
          | nil => simp at h4
          | cons y b' =>
            simp only [List.cons_append, List.cons.injEq] at h4
            exact ih _ _ h4.2
        · cases b' with
          | nil => simp at h4
          | cons y b' =>
            exfalso
            simp only [List.cons_append, List.cons.injEq] at h4
            have := hr.2.2 '（' (by rw [h3, ← h4.1]; simp)
            simp only [Spec.Kana, Hiragana, Katakana] at this
            exact absurd this (by decide)
    · cases c' with
      | nil =>
        simp only [List.nil_append, List.cons.injEq, true_and] at h2
        rw [h2]; simp
      | cons x c' =>
        simp only [List.cons_append, List.cons.injEq] at h2
        exact absurd (by rw [h1, ← h2.1]; simp) ha

theorem printed_unclosed {p q : List Char} (h : Printed p q) : hasUnclosedBrackets (utf8Encode p) = false := by
  cases e : hasUnclosedBrackets (utf8Encode p) with
  | false => rfl
  | true =>
    exfalso
    obtain ⟨a, b, h1, h2⟩ := (C51_unclosed _).1 e
    obtain ⟨c, d, h3, _, rfl⟩ := bracket_split p a b h1.symm
    have := printed_closed h c d h3
    obtain ⟨x, y, rfl⟩ := List.append_of_mem this
    exact h2 ⟨utf8Encode x, utf8Encode y, by simp only [utf8Encode, List.flatMap_append, List.flatMap_cons]; simp; rfl⟩

theorem printed_start {p q : List Char} (h : Printed p q) : strFind openWideBracket (utf8Encode p) ≠ some 0 := by
  intro e
  obtain ⟨b, hb⟩ := ((strFind_first openWideBracket (by decide) _).1 0 e).1
  rw [List.drop_zero] at hb
  obtain ⟨c, d, h1, h2, _⟩ := bracket_split p [] b hb
  have hc : c = [] := by
    cases c with
    | nil => rfl
    | cons x c =>
      exfalso
      have := congrArg List.length h2
      simp only [utf8Encode, List.flatMap_cons, List.length_append, List.length_nil] at this
      have := String.length_utf8EncodeChar x
      have := x.utf8Size_pos
      omega
  rw [hc, List.nil_append] at h1
  cases h with
  | last ha => exact ha (by rw [h1]; simp)
  | @reading a b' p q ha hr _ =>
    cases a with
    | nil => obtain ⟨⟨_, h3, _⟩, _⟩ := hr; simp at h3
    | cons x a =>
      injection h1 with h1 _
      exact ha (by rw [h1]; simp)

/-- Lines with all brackets closed aren't joined. -/
theorem joinLoop_closed (lines : List Str)
    (h : ∀ l ∈ lines, hasUnclosedBrackets l = false ∧ strFind openWideBracket l ≠ some 0) : ∀ prev : Str,
    joinLoop prev false lines = .ok ((prev :: lines).filter (· ≠ [])) := by
  induction lines with
  | nil =>
    intro prev
    rw [joinLoop]
    by_cases hp : prev = [] <;> simp [hp]
  | cons l lines ih =>
    intro prev
    obtain ⟨hl1, hl2⟩ := h l (by simp)
    have ih := ih (fun x hx => h x (by simp [hx])) l
    rw [joinLoop, hl1, ih]
    by_cases hp : prev = []
    · rw [if_pos hp, List.filter_cons_of_neg (a := prev) (by simp [hp])]
    · have hj : joinPosition false l = none := by
        rw [joinPosition, if_neg (by simp), if_neg hl2]
      rw [if_neg hp, hj, List.filter_cons_of_pos (a := prev) (by simp [hp])]
      rfl

/-- The output consists of lines as described by `Printed`, maybe with an unfinished one at the end. -/
theorem withReadings_lines : ∀ lines : List (List Char), (∀ l ∈ lines, TextLine l) →
    ∃ (ps : List (List Char × List Char)) (t tq : List Char),
      withReadings lines = (ps.flatMap fun p => p.1 ++ ['\n']) ++ t ∧ (∀ p ∈ ps, Printed p.1 p.2 ∧ '\n' ∉ p.1) ∧
      (Printed t tq ∧ '\n' ∉ t) ∧ (ps.map (·.2)).flatten ++ tq = (baseLines lines).flatten
  | [], _ => ⟨[], [], [], by simp [withReadings], by simp, ⟨.last (by simp), by simp⟩, by simp [baseLines]⟩
  | [a], h => by
    refine ⟨[(a, a)], [], [], by simp [withReadings], ?_, ⟨.last (by simp), by simp⟩, by simp [baseLines]⟩
    intro p hp
    rw [List.mem_singleton.1 hp]
    exact ⟨.last fun hm => (h a (by simp) _ hm).2.2.1 rfl, fun hm => (h a (by simp) _ hm).2.1 rfl⟩
  | a :: b :: r, h => by
    have ha : '（' ∉ a := fun hm => (h a (by simp) _ hm).2.2.1 rfl
    have hna : '\n' ∉ a := fun hm => (h a (by simp) _ hm).2.1 rfl
    have hnb : '\n' ∉ b := fun hm => (h b (by simp) _ hm).2.1 rfl
    have hp : ∀ p : List Char, '\n' ∉ p → '\n' ∉ a ++ '（' :: (b ++ '）' :: p) := by
      intro p hp
      simp [hna, hnb, hp]
    by_cases hr : ReadingOf a b
    · obtain ⟨ps, t, tq, h1, h2, h3, h4⟩ := withReadings_lines r fun l hl => h l (by simp [hl])
      rw [withReadings, baseLines, if_pos hr, if_pos hr, h1, List.flatten_cons, ← h4]
      cases ps with
      | nil =>
        refine ⟨[], _, _, ?_, by simp, ⟨.reading ha hr h3.1, hp t h3.2⟩, ?_⟩ <;> simp
      | cons p ps =>
        refine ⟨(a ++ '（' :: (b ++ '）' :: p.1), a ++ p.2) :: ps, t, tq, ?_, ?_, h3, ?_⟩
        · simp
        · intro x hx
          rcases List.mem_cons.1 hx with rfl | hx
          · exact ⟨.reading ha hr (h2 p (by simp)).1, hp _ (h2 p (by simp)).2⟩
          · exact h2 x (by simp [hx])
        · simp
    · obtain ⟨ps, t, tq, h1, h2, h3, h4⟩ := withReadings_lines (b :: r) fun l hl => h l (List.mem_cons_of_mem _ hl)
      rw [withReadings, baseLines, if_neg hr, if_neg hr, h1, List.flatten_cons, ← h4]
      refine ⟨(a, a) :: ps, t, tq, by simp, ?_, h3, by simp⟩
      intro x hx
      rcases List.mem_cons.1 hx with rfl | hx
      · exact ⟨.last ha, hna⟩
      · exact h2 x hx

theorem withReadings_mem : ∀ (lines : List (List Char)) (c : Char), c ∈ withReadings lines →
    c = '\n' ∨ c = '（' ∨ c = '）' ∨ ∃ l ∈ lines, c ∈ l
  | [], c, h => by simp [withReadings] at h
  | [a], c, h => by
    simp only [withReadings, List.mem_append, List.mem_singleton] at h
    rcases h with h | h
    · exact .inr (.inr (.inr ⟨a, by simp, h⟩))
    · exact .inl h
  | a :: b :: r, c, h => by
    rw [withReadings] at h
    split at h
    · simp only [List.mem_append, List.mem_singleton] at h
      rcases h with (((h | h) | h) | h) | h
      · exact .inr (.inr (.inr ⟨a, by simp, h⟩))
      · exact .inr (.inl h)
      · exact .inr (.inr (.inr ⟨b, by simp, h⟩))
      · exact .inr (.inr (.inl h))
      · rcases withReadings_mem r c h with h | h | h | ⟨l, hl, h⟩
        · exact .inl h
        · exact .inr (.inl h)
        · exact .inr (.inr (.inl h))
        · exact .inr (.inr (.inr ⟨l, by simp [hl], h⟩))
    · simp only [List.mem_append, List.mem_singleton] at h
      rcases h with (h | h) | h
      · exact .inr (.inr (.inr ⟨a, by simp, h⟩))
      · exact .inl h
      · rcases withReadings_mem (b :: r) c h with h | h | h | ⟨l, hl, h⟩
        · exact .inl h
        · exact .inr (.inl h)
        · exact .inr (.inr (.inl h))
        · exact .inr (.inr (.inr ⟨l, List.mem_cons_of_mem _ hl, h⟩))

theorem getlines_printed (ps : List (List Char)) (t : List Char) (h : ∀ p ∈ ps, '\n' ∉ p) (ht : '\n' ∉ t) :
    getlines 0x0a (utf8Encode ((ps.flatMap fun p => p ++ ['\n']) ++ t)) none =
      ps.map utf8Encode ++ if t = [] then [] else [utf8Encode t] := by
  have hb : ∀ l : List Char, '\n' ∉ l → (0x0a : UInt8) ∉ utf8Encode l := by
    intro l h hm
    obtain ⟨c, hc, hb⟩ := List.mem_flatMap.1 hm
    rcases encodeChar_bytes c with ⟨h1, _⟩ | ⟨_, _, h3⟩
    · exact h (by rwa [h1] at hc)
    · exact h3 hb
  induction ps with
  | nil =>
    simp only [List.flatMap_nil, List.nil_append, List.map_nil]
    by_cases hn : t = []
    · rw [if_pos hn, hn]; rfl
    · rw [if_neg hn]
      have h1 : utf8Encode t ≠ [] := by
        cases t with
        | nil => exact absurd rfl hn
        | cons c t =>
          intro e
          exact enc_ne_nil _ (List.append_eq_nil_iff.1 e).1
      have := getlines_piece _ h1 (hb t ht) [] none
      rw [List.append_nil] at this
      rw [this]
      simp [getlines]
  | cons p ps ih =>
    have ih := ih fun x hx => h x (by simp [hx])
    have e : utf8Encode (((p :: ps).flatMap fun p => p ++ ['\n']) ++ t) =
        utf8Encode p ++ 0x0a :: utf8Encode ((ps.flatMap fun p => p ++ ['\n']) ++ t) := by
      simp only [List.flatMap_cons, utf8Encode, List.flatMap_append, List.append_assoc]
      rfl
    rw [e, List.map_cons, List.cons_append, ← ih]
    cases hn : utf8Encode p with
    | nil => rfl
    | cons b r =>
      rw [← hn, getlines_piece _ (by rw [hn]; simp) (hb p (h p (by simp)))]
      simp only [getlines, if_true, Option.getD_none, List.nil_append]

/-- What kanjiFormat writes is read by kanjiStats as texts that together are the lines that aren't readings. -/
theorem C178_base (lines : List (List Char)) (h : ∀ l ∈ lines, TextLine l)
    (hlast : ∀ l, lines.getLast? = some l → ¬ LastIsKanji l) :
    ∃ qs : List (List Char), (stringsOf true (formatFile (fileText lines))).map furiganaFind = qs.map utf8Encode ∧
      qs.flatten = (baseLines lines).flatten := by
  rw [C177_text lines (fun l hl c hc => ⟨(h l hl c hc).1, (h l hl c hc).2.1⟩) hlast]
  obtain ⟨ps, t, tq, h1, h2, h3, h4⟩ := withReadings_lines lines h
  have hmem : ∀ c ∈ withReadings lines, c ≠ Char.ofNat 0 := by
    intro c hc
    rcases withReadings_mem lines c hc with rfl | rfl | rfl | ⟨l, hl, hc⟩
    · decide
    · decide
    · decide
    · exact (h l hl c hc).1
  rw [h1] at hmem
  have hlines := getlines_printed (ps.map (·.1)) t (by
    intro p hp
    obtain ⟨x, hx, rfl⟩ := List.mem_map.1 hp
    exact (h2 x hx).2) h3.2
  rw [List.flatMap_map] at hlines
  -- the lines with what is left of them
  let all : List (List Char × List Char) := ps ++ if t = [] then [] else [(t, tq)]
  have hall : ∀ p ∈ all, Printed p.1 p.2 ∧ ∀ c ∈ p.1, c ≠ Char.ofNat 0 := by
    intro p hp
    rcases List.mem_append.1 hp with hp | hp
    · refine ⟨(h2 p hp).1, fun c hc => hmem c ?_⟩
      exact List.mem_append_left _ (List.mem_flatMap.2 ⟨p, hp, by simp [hc]⟩)
    · split at hp
      · simp at hp
      · rw [List.mem_singleton.1 hp]
        exact ⟨h3.1, fun c hc => hmem c (List.mem_append_right _ hc)⟩
  have e1 : getlines 0x0a (utf8Encode (withReadings lines)) none = all.map fun p => utf8Encode p.1 := by
    rw [h1, hlines, List.map_map]
    simp only [all, List.map_append]
    congr 1
    split <;> simp
  have e2 : stringsOf true (utf8Encode (withReadings lines)) = (all.map fun p => utf8Encode p.1).filter (· ≠ []) := by
    have := joinLoop_closed (all.map fun p => utf8Encode p.1) (by
      intro l hl
      obtain ⟨p, hp, rfl⟩ := List.mem_map.1 hl
      exact ⟨printed_unclosed (hall p hp).1, printed_start (hall p hp).1⟩) []
    rw [List.filter_cons_of_neg (by simp)] at this
    simp only [stringsOf, fileStrings, if_true, e1, this]
  have e3 : (all.map (·.2)).flatten = (baseLines lines).flatten := by
    rw [← h4]
    simp only [all, List.map_append, List.flatten_append]
    congr 1
    split
    · rename_i ht
      have := printed_without h3.1
      rw [ht] at this
      cases htq : tq with
      | nil => rfl
      | cons x q =>
        rw [htq] at this
        cases this with
        | remove h _ =>
          obtain ⟨_, _, _, _, e⟩ := h
          simp at e
    · simp
  rw [e2, ← e3]
  clear e1 e2 e3 hlines
  have hall' := hall
  generalize all = l at hall'
  clear hall hmem
  induction l with
  | nil => exact ⟨[], rfl, rfl⟩
  | cons p l ih =>
    obtain ⟨qs, ih1, ih2⟩ := ih fun x hx => hall' x (by simp [hx])
    obtain ⟨hp1, hp2⟩ := hall' p (by simp)
    have hf := printed_find hp1 hp2
    by_cases hn : utf8Encode p.1 = []
    · refine ⟨qs, ?_, ?_⟩
      · rw [List.map_cons, List.filter_cons_of_neg (by simp [hn])]
        exact ih1
      · rw [hn] at hf
        have : p.2 = [] := Converter.utf8Encode_inj (b := ([] : List Char)) (by rw [← hf]; rfl)
        rw [List.map_cons, List.flatten_cons, this]
        exact ih2
    · refine ⟨p.2 :: qs, ?_, ?_⟩
      · rw [List.map_cons, List.filter_cons_of_pos (by simpa using hn), List.map_cons, List.map_cons, hf, ih1]
      · rw [List.map_cons, List.flatten_cons, List.flatten_cons, ih2]

theorem baseLines_mem : ∀ (lines : List (List Char)) (l : List Char), l ∈ baseLines lines → l ∈ lines
  | [], l, h => by simp [baseLines] at h
  | [a], l, h => by simpa [baseLines] using h
  | a :: b :: r, l, h => by
    rw [baseLines] at h
    split at h
    · rcases List.mem_cons.1 h with rfl | h
      · simp
      · simp [baseLines_mem r l h]
    · rcases List.mem_cons.1 h with rfl | h
      · simp
      · exact List.mem_cons_of_mem _ (baseLines_mem (b :: r) l h)

/-- So for each category without Furigana the same characters are counted in the output of kanjiFormat as in a file that
has only the lines that aren't readings. -/
theorem C178_counts (lines : List (List Char)) (h : ∀ l ∈ lines, TextLine l ∧ ∀ c ∈ l, Simple c)
    (hlast : ∀ l, lines.getLast? = some l → ¬ LastIsKanji l) (name : Str) (cat : Category) (hf : cat.furigana = false) :
    cat.chars name (.file (formatFile (fileText lines))) = cat.chars name (.file (fileText (baseLines lines))) := by
  obtain ⟨qs, h1, h2⟩ := C178_base lines (fun l hl => (h l hl).1) hlast
  have hb : ∀ l ∈ baseLines lines, ∀ c ∈ l, Simple c ∧ c ≠ '（' := fun l hl c hc =>
    have := h l (baseLines_mem lines l hl)
    ⟨this.2 c hc, (this.1 c hc).2.2.1⟩
  have hq : ∀ q ∈ qs, ∀ c ∈ q, Simple c := by
    intro q hq c hc
    have : c ∈ qs.flatten := List.mem_flatten.2 ⟨q, hq, hc⟩
    rw [h2] at this
    obtain ⟨l, hl, hc⟩ := List.mem_flatten.1 this
    exact (hb l hl c hc).1
  -- the characters of the output
  have e1 : (stringsOf true (formatFile (fileText lines))).flatMap (charsOf (some furiganaFind)) =
      wideChars (baseLines lines).flatten := by
    have e : ∀ s : Str, charsOf (some furiganaFind) s = charsOf none (furiganaFind s) := fun s => rfl
    have e' : ∀ ss : List Str, ss.flatMap (charsOf (some furiganaFind)) = (ss.map furiganaFind).flatMap (charsOf none) := by
      intro ss
      rw [List.flatMap_map]
      rfl
    rw [e', h1, ← h2]
    clear h1 h2 e e'
    induction qs with
    | nil => rfl
    | cons q qs ih =>
      rw [List.map_cons, List.flatMap_cons, ih fun x hx => hq x (by simp [hx]), List.flatten_cons, wideChars_append,
        charsOf_simple q (hq q (by simp))]
      rfl
  have e2 : (stringsOf true (fileText (baseLines lines))).flatMap (charsOf (some furiganaFind)) =
      wideChars (baseLines lines).flatten := by
    have hs : ∀ c ∈ (baseLines lines).flatMap (fun l => l ++ ['\n']), Simple c ∧ c ≠ '（' := by
      intro c hc
      obtain ⟨l, hl, hc⟩ := List.mem_flatMap.1 hc
      rcases List.mem_append.1 hc with hc | hc
      · exact hb l hl c hc
      · rw [List.mem_singleton.1 hc]
        refine ⟨?_, by decide⟩
        unfold Simple IsSelector IsKanaMark
        decide
    have := stringsOf_text false _ (fun c hc => (hs c hc).1) (.inr fun hm => (hs _ hm).2 rfl)
    refine this.trans ?_
    generalize baseLines lines = l
    induction l with
    | nil => rfl
    | cons a l ih =>
      rw [List.flatMap_cons, wideChars_append, wideChars_append, ih, List.flatten_cons, wideChars_append]
      simp [wideChars]
  have key : ∀ ss : List Str, charsIn false cat.allow (ss.map fun s => (s, name)) =
      ((ss.flatMap (charsOf (some furiganaFind))).filter cat.allow).map fun c => (c, name) := by
    intro ss
    induction ss with
    | nil => rfl
    | cons s ss ih =>
      have : charsIn false cat.allow ((s :: ss).map fun s => (s, name)) =
        ((charsOf (some furiganaFind) s).filter cat.allow).map (fun c => (c, name)) ++
          charsIn false cat.allow (ss.map fun s => (s, name)) := by simp [charsIn]
      rw [this, ih, List.flatMap_cons, List.filter_append, List.map_append]
  unfold Category.chars
  rw [hf, nodeTexts, nodeTexts, charsIn_append, charsIn_append]
  congr 1
  rw [key, key, Bool.not_false, e1, e2]

/-- A text with two readings. -/
example : formatFile (fileText [['漢', '字'], ['か', 'ん', 'じ'], ['を', '読'], ['よ'], ['む']]) =
    u8!"漢字（かんじ）を読（よ）む\n" := by decide +kernel
example : (stringsOf true (u8!"漢字（かんじ）を読（よ）む\n")).map furiganaFind = [u8!"漢字を読む"] := by decide +kernel

end KT
