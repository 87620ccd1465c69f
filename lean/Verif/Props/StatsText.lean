import Verif.Props.StatsProgram
import Verif.Spec.StatsText
import Verif.Lemmas.ConverterText
import Verif.Props.Searches
import Verif.Props.Jukugo
/-!
# The numbers of a report are the numbers of characters in the text (C176)
-/
namespace KT
open Spec

/-! ## Lines of a text -/

theorem encodeChar_bytes (c : Char) : (c = '\n' ∧ String.utf8EncodeChar c = [0x0a]) ∨
    (c ≠ '\n' ∧ String.utf8EncodeChar c ≠ [] ∧ (0x0a : UInt8) ∉ String.utf8EncodeChar c) := by
  by_cases h : c = '\n'
  · exact .inl ⟨h, by rw [h]; rfl⟩
  · refine .inr ⟨h, enc_ne_nil _, ?_⟩
    have hn : c.toNat ≠ 10 := fun e => h (Char.toNat_inj.mp (by rw [e]; rfl))
    rw [utf8EncodeChar_eq_enc, enc]
    intro hm
    have key : ∀ n : Nat, n < 256 → (0x0a : UInt8) = UInt8.ofNat n → n = 10 := by
      intro n hn h
      have := congrArg UInt8.toNat h
      rw [toNat_ofNat_lt hn] at this
      exact this.symm
    split at hm
    · have := key c.toNat (by omega) (by simpa using hm)
      omega
    split at hm
    · simp only [List.mem_cons, List.not_mem_nil, or_false] at hm
      rcases hm with hm | hm <;> (have := key _ (by omega) hm; omega)
    split at hm
    · simp only [List.mem_cons, List.not_mem_nil, or_false] at hm
      rcases hm with hm | hm | hm <;> (have := key _ (by omega) hm; omega)
    · simp only [List.mem_cons, List.not_mem_nil, or_false] at hm
      rcases hm with hm | hm | hm | hm <;> (have := key _ (by omega) hm; omega)

theorem getlines_piece (p : Str) (hp : p ≠ []) (hd : (0x0a : UInt8) ∉ p) (r : Str) : ∀ cur : Option Str,
    getlines 0x0a (p ++ r) cur = getlines 0x0a r (some (cur.getD [] ++ p)) := by
  induction p with
  | nil => exact absurd rfl hp
  | cons b p ih =>
    intro cur
    have hb : b ≠ 0x0a := fun h => hd (by simp [h])
    simp only [List.cons_append, getlines, hb, if_false]
    cases p with
    | nil => cases cur <;> simp
    | cons b' p =>
      rw [ih (by simp) (fun h => hd (List.mem_cons_of_mem _ h))]
      cases cur <;> simp

/-- The lines of a text are texts; together they are the text without line ends. -/
theorem getlines_text (cs : List Char) : ∀ cur : Option (List Char), ∃ ls : List (List Char),
    getlines 0x0a (utf8Encode cs) (cur.map utf8Encode) = ls.map utf8Encode ∧
    ls.flatten = cur.getD [] ++ cs.filter (· ≠ '\n') := by
  induction cs with
  | nil =>
    intro cur
    cases cur with
    | none => exact ⟨[], by simp [utf8Encode, getlines]⟩
    | some c => exact ⟨[c], by simp [utf8Encode, getlines]⟩
  | cons c cs ih =>
    intro cur
    have e : utf8Encode (c :: cs) = String.utf8EncodeChar c ++ utf8Encode cs := rfl
    rcases encodeChar_bytes c with ⟨h1, h2⟩ | ⟨h1, h2, h3⟩
    · obtain ⟨ls, e1, e2⟩ := ih none
      refine ⟨cur.getD [] :: ls, ?_, ?_⟩
      · rw [e, h2]
        simp only [List.cons_append, getlines, if_true, List.nil_append, List.map_cons, ← e1]
        cases cur <;> rfl
      · rw [List.flatten_cons, e2, List.filter_cons_of_neg (by simp [h1])]
        simp
    · obtain ⟨ls, e1, e2⟩ := ih (some (cur.getD [] ++ [c]))
      refine ⟨ls, ?_, ?_⟩
      · rw [e, getlines_piece _ h2 h3, ← e1]
        cases cur <;> simp [utf8Encode]
      · rw [e2, List.filter_cons_of_pos (by simp [h1])]
        simp

theorem charsOf_simple (cs : List Char) (h : ∀ c ∈ cs, Simple c) :
    charsOf none (utf8Encode cs) = (cs.filter (128 ≤ ·.toNat)).map String.utf8EncodeChar := by
  obtain ⟨st, h1, _⟩ := utf8Chars_tokens true (tokens_utf8Encode cs fun c hc => (h c hc).1)
  rw [charsOf]
  simp only [Option.getD_none, id_eq]
  rw [h1]
  exact pieces_simple cs h


/-! ## Brackets -/

theorem encodeChar_tail (c : Char) : ∀ b ∈ (String.utf8EncodeChar c).tail, b.toNat < 192 := by
  rw [utf8EncodeChar_eq_enc, enc]
  intro b hm
  split at hm
  · simp at hm
  split at hm
  · simp only [List.tail_cons, List.mem_cons, List.not_mem_nil, or_false] at hm
    rw [hm, toNat_ofNat_lt (by omega)]; omega
  split at hm
  · simp only [List.tail_cons, List.mem_cons, List.not_mem_nil, or_false] at hm
    rcases hm with hm | hm <;> (rw [hm, toNat_ofNat_lt (by omega)]; omega)
  · simp only [List.tail_cons, List.mem_cons, List.not_mem_nil, or_false] at hm
    rcases hm with hm | hm | hm <;> (rw [hm, toNat_ofNat_lt (by omega)]; omega)

/-- The bytes of a bracket are only where there is a bracket. -/
theorem bracket_infix (cs : List Char) (h : u8!"（" <:+: utf8Encode cs) : '（' ∈ cs := by
  induction cs with
  | nil => simp [utf8Encode] at h
  | cons c cs ih =>
    obtain ⟨a, b, e⟩ := h
    have e1 : a ++ u8!"（" ++ b = String.utf8EncodeChar c ++ utf8Encode cs := e
    rw [List.append_assoc, List.append_eq_append_iff] at e1
    rcases e1 with ⟨a', h1, h2⟩ | ⟨c', h1, h2⟩
    · -- the bracket starts in the first character
      cases a with
      | nil =>
        have h3 : String.utf8EncodeChar '（' ++ b = String.utf8EncodeChar c ++ utf8Encode cs := by
          rw [h1]; exact h2
        rw [(prefix_unique h3).1]
        exact List.mem_cons_self
      | cons x a =>
        cases a' with
        | nil =>
          refine List.mem_cons_of_mem _ (ih ⟨[], b, ?_⟩)
          simpa using h2
        | cons y a' =>
          exfalso
          have hy : y = 0xef := by
            have := congrArg List.head? h2
            simpa using this.symm
          have := encodeChar_tail c y (by rw [h1]; simp)
          rw [hy] at this
          exact absurd this (by decide)
    · exact List.mem_cons_of_mem _ (ih ⟨c', b, by rw [List.append_assoc]; exact h2.symm⟩)

theorem find_none {p s : Str} (hp : p ≠ []) (h : ¬ p <:+: s) : strFind p s = none := by
  cases e : strFind p s with
  | none => rfl
  | some i => exact absurd ((infix_iff_drop p s).2 ⟨i, ((strFind_first p hp s).1 i e).1⟩) h

theorem unclosed_none {s : Str} (h : ¬ u8!"（" <:+: s) : hasUnclosedBrackets s = false := by
  cases e : hasUnclosedBrackets s with
  | false => rfl
  | true =>
    obtain ⟨a, b, h1, _⟩ := (C51_unclosed s).1 e
    exact absurd ⟨a, b, h1.symm⟩ h

/-- Lines without brackets aren't joined. -/
theorem joinLoop_plain (lines : List Str) (h : ∀ l ∈ lines, ¬ u8!"（" <:+: l) : ∀ prev : Str,
    joinLoop prev false lines = .ok ((prev :: lines).filter (· ≠ [])) := by
  induction lines with
  | nil =>
    intro prev
    rw [joinLoop]
    by_cases hp : prev = [] <;> simp [hp]
  | cons l lines ih =>
    intro prev
    have hl := h l (by simp)
    have ih := ih (fun x hx => h x (by simp [hx])) l
    rw [joinLoop, unclosed_none hl, ih]
    by_cases hp : prev = []
    · rw [if_pos hp, List.filter_cons_of_neg (a := prev) (by simp [hp])]
    · have hj : joinPosition false l = none := by
        rw [joinPosition, if_neg (by simp), find_none (by decide) (by exact hl)]
        simp
      rw [if_neg hp, hj, List.filter_cons_of_pos (a := prev) (by simp [hp])]
      rfl

theorem no_furigana (cs : List Char) (h : '（' ∉ cs) : ¬ HasFurigana (cs.map Char.toNat) := by
  rintro ⟨a, b, x, r, e, _, k, _, _, e2⟩
  have : 0xff08 ∈ cs.map Char.toNat := by rw [e, e2]; simp
  obtain ⟨c, hc, hn⟩ := List.mem_map.1 this
  exact h (by rwa [show c = '（' from Char.toNat_inj.mp (by rw [hn]; rfl)] at hc)

theorem furiganaFind_plain (cs : List Char) (hs : ∀ c ∈ cs, Simple c) (h : '（' ∉ cs) :
    furiganaFind (utf8Encode cs) = utf8Encode cs := by
  have h0 : ∀ c ∈ cs, c ≠ Char.ofNat 0 := fun c hc e => (hs c hc).1 (by rw [e]; rfl)
  refine (furiganaFind_eq_iff ⟨cs, h0, rfl⟩).2 ?_
  rw [decode_utf8Encode h0]
  exact no_furigana cs h

/-! ## Files and trees -/

/-- The multi-byte characters of a text. -/
def wideChars (cs : List Char) : List Str := (cs.filter (128 ≤ ·.toNat)).map String.utf8EncodeChar

theorem wideChars_append (a b : List Char) : wideChars (a ++ b) = wideChars a ++ wideChars b := by
  simp [wideChars]

theorem charsOf_text (furigana : Bool) (cs : List Char) (hs : ∀ c ∈ cs, Simple c) (hb : furigana = true ∨ '（' ∉ cs) :
    charsOf (if furigana then none else some furiganaFind) (utf8Encode cs) = wideChars cs := by
  rw [wideChars, ← charsOf_simple cs hs]
  cases furigana with
  | true => rfl
  | false =>
    have := furiganaFind_plain cs hs (by simpa using hb)
    simp only [charsOf, Bool.false_eq_true, if_false, Option.getD_some, Option.getD_none, id_eq, this]

theorem stringsOf_text (furigana : Bool) (cs : List Char) (hs : ∀ c ∈ cs, Simple c) (hb : furigana = true ∨ '（' ∉ cs) :
    (stringsOf (!furigana) (utf8Encode cs)).flatMap (charsOf (if furigana then none else some furiganaFind)) =
      wideChars cs := by
  obtain ⟨ls, h1, h2⟩ := getlines_text cs none
  simp only [Option.map_none, Option.getD_none, List.nil_append] at h1 h2
  have hm : ∀ l ∈ ls, ∀ c ∈ l, c ∈ cs := by
    intro l hl c hc
    have : c ∈ ls.flatten := List.mem_flatten.2 ⟨l, hl, hc⟩
    rw [h2] at this
    exact (List.mem_filter.1 this).1
  have hw : ∀ l ∈ ls, charsOf (if furigana then none else some furiganaFind) (utf8Encode l) = wideChars l := by
    intro l hl
    refine charsOf_text furigana l (fun c hc => hs c (hm l hl c hc)) ?_
    exact hb.imp_right fun h hc => h (hm l hl _ hc)
  have hsum : ∀ ls : List (List Char), ls.flatMap wideChars = wideChars ls.flatten := by
    intro ls
    induction ls with
    | nil => rfl
    | cons l ls ih => rw [List.flatMap_cons, ih, List.flatten_cons, wideChars_append]
  have hnl : wideChars (cs.filter (· ≠ '\n')) = wideChars cs := by
    rw [wideChars, wideChars, List.filter_filter]
    congr 1
    apply List.filter_congr
    intro c _
    by_cases h : 128 ≤ c.toNat
    · have : c ≠ '\n' := by rintro rfl; exact absurd h (by decide)
      simp [this, h]
    · simp [h]
  have hflat : ∀ ls : List (List Char), (∀ l ∈ ls,
      charsOf (if furigana then none else some furiganaFind) (utf8Encode l) = wideChars l) →
      (ls.map utf8Encode).flatMap (charsOf (if furigana then none else some furiganaFind)) = wideChars ls.flatten := by
    intro ls h
    rw [← hsum, List.flatMap_map]
    simp only [List.flatMap_def]
    congr 1
    exact List.map_congr_left h
  cases furigana with
  | true =>
    have e : stringsOf (!true) (utf8Encode cs) = ls.map utf8Encode := by
      simp only [stringsOf, fileStrings, Bool.not_true, Bool.false_eq_true, if_false, h1]
    rw [e, hflat ls hw, h2, hnl]
  | false =>
    have hb : '（' ∉ cs := by simpa using hb
    have e : stringsOf (!false) (utf8Encode cs) = (ls.map utf8Encode).filter (· ≠ []) := by
      have : ∀ l ∈ ls.map utf8Encode, ¬ u8!"（" <:+: l := by
        intro s hs' hi
        obtain ⟨l, hl, rfl⟩ := List.mem_map.1 hs'
        exact hb (hm l hl _ (bracket_infix l hi))
      have := joinLoop_plain _ this []
      rw [List.filter_cons_of_neg (by simp)] at this
      simp only [stringsOf, fileStrings, Bool.not_false, if_true, h1, this]
    have e2 : ∀ l : List Str, (∀ x ∈ l, x = [] → charsOf (if false then none else some furiganaFind) x = []) →
        (l.filter (· ≠ [])).flatMap (charsOf (if false then none else some furiganaFind)) =
          l.flatMap (charsOf (if false then none else some furiganaFind)) := by
      intro l
      induction l with
      | nil => intro _; rfl
      | cons x l ih =>
        intro h
        have ih := ih fun y hy => h y (by simp [hy])
        by_cases hx : x = []
        · rw [List.filter_cons_of_neg (by simp [hx]), List.flatMap_cons, h x (by simp) hx, ih]
          rfl
        · rw [List.filter_cons_of_pos (by simp [hx]), List.flatMap_cons, List.flatMap_cons, ih]
    rw [e]
    have h3 := e2 (ls.map utf8Encode) (by
      rintro x hx rfl
      have := charsOf_text false [] (by simp) (by simp)
      exact this)
    exact h3.trans (by rw [hflat ls hw, h2, hnl])

theorem charsIn_append (furigana : Bool) (allow : Str → Bool) (a b : List (Str × Str)) :
    charsIn furigana allow (a ++ b) = charsIn furigana allow a ++ charsIn furigana allow b := by
  simp [charsIn]

theorem charsIn_map (furigana : Bool) (allow : Str → Bool) (l : List Str) (name : Str) :
    (charsIn furigana allow (l.map fun s => (s, name))).map (·.1) =
      (l.flatMap (charsOf (if furigana then none else some furiganaFind))).filter allow := by
  induction l with
  | nil => rfl
  | cons s l ih =>
    have : charsIn furigana allow ((s :: l).map fun s => (s, name)) = charsIn furigana allow [(s, name)] ++
        charsIn furigana allow (l.map fun s => (s, name)) := by simp [charsIn]
    rw [this, List.map_append, ih, List.flatMap_cons, List.filter_append]
    simp [charsIn, Function.comp_def]

mutual
theorem node_chars (furigana : Bool) (allow : Str → Bool) (name : Str) (n : Node) (cs : List Char)
    (ht : TreeText name n cs) (hs : ∀ c ∈ cs, Simple c) (hb : furigana = true ∨ '（' ∉ cs) :
    (charsIn furigana allow (nodeTexts (!furigana) name n)).map (·.1) = (wideChars cs).filter allow := by
  cases n with
  | file content =>
    obtain ⟨a, b, rfl, rfl, rfl⟩ := ht
    rw [nodeTexts, charsIn_append, List.map_append, charsIn_map, wideChars_append, List.filter_append,
      stringsOf_text furigana a (fun c hc => hs c (by simp [hc])) (hb.imp_right fun h hc => h (by simp [hc]))]
    have := charsIn_map furigana allow [utf8Encode b] (utf8Encode b)
    rw [List.map_singleton] at this
    rw [this, List.flatMap_singleton,
      charsOf_text furigana b (fun c hc => hs c (by simp [hc])) (hb.imp_right fun h hc => h (by simp [hc]))]
  | dir es =>
    obtain ⟨a, b, h1, rfl, rfl⟩ := ht
    rw [nodeTexts, charsIn_append, List.map_append, wideChars_append, List.filter_append,
      entry_chars furigana allow es a h1 (fun c hc => hs c (by simp [hc])) (hb.imp_right fun h hc => h (by simp [hc]))]
    have := charsIn_map furigana allow [utf8Encode b] (utf8Encode b)
    rw [List.map_singleton] at this
    rw [this, List.flatMap_singleton,
      charsOf_text furigana b (fun c hc => hs c (by simp [hc])) (hb.imp_right fun h hc => h (by simp [hc]))]
  | link t =>
    rw [TreeText] at ht
    rw [ht, nodeTexts]
    rfl
  | other =>
    rw [TreeText] at ht
    rw [ht, nodeTexts]
    rfl

theorem entry_chars (furigana : Bool) (allow : Str → Bool) (es : Entries) (cs : List Char)
    (ht : EntriesText es cs) (hs : ∀ c ∈ cs, Simple c) (hb : furigana = true ∨ '（' ∉ cs) :
    (charsIn furigana allow (entryTexts (!furigana) es)).map (·.1) = (wideChars cs).filter allow := by
  cases es with
  | nil =>
    rw [EntriesText] at ht
    rw [ht, entryTexts]
    rfl
  | cons name n rest =>
    obtain ⟨a, b, h1, h2, rfl⟩ := ht
    rw [entryTexts, charsIn_append, List.map_append, wideChars_append, List.filter_append,
      node_chars furigana allow name n a h1 (fun c hc => hs c (by simp [hc])) (hb.imp_right fun h hc => h (by simp [hc])),
      entry_chars furigana allow rest b h2 (fun c hc => hs c (by simp [hc])) (hb.imp_right fun h hc => h (by simp [hc]))]
end

/-- The characters that are counted are those of the text, in order; Furigana isn't looked at if the category counts it or
if there are no brackets. -/
theorem C176_chars (c : Category) (name : Str) (n : Node) (cs : List Char) (ht : TreeText name n cs)
    (hs : ∀ x ∈ cs, Simple x) (hb : c.furigana = true ∨ '（' ∉ cs) :
    (c.chars name n).map (·.1) =
      ((cs.filter (128 ≤ ·.toNat)).map String.utf8EncodeChar).filter c.allow :=
  node_chars c.furigana c.allow name n cs ht hs hb

/-! ## Categories -/

theorem oneOf_single (X : Nat → Prop) (n : Nat) : OneOf X [n] ↔ X n := by
  constructor
  · rintro ⟨c, hc, h | ⟨m, _, h⟩⟩
    · simpa [List.singleton_inj.1 h] using hc
    · simp at h
  · exact fun h => ⟨n, h, .inl rfl⟩

theorem classes_char (c : Char) (h : Simple c) :
    (isHiragana (String.utf8EncodeChar c) = true ↔ Hiragana c.toNat) ∧
    (isKatakana (String.utf8EncodeChar c) = true ↔ Katakana c.toNat) ∧
    (isCommonKanji (String.utf8EncodeChar c) = true ↔ CommonKanji c.toNat) ∧
    (isRareKanji (String.utf8EncodeChar c) = true ↔ RareKanji c.toNat) ∧
    (isKanji (String.utf8EncodeChar c) = true ↔ Spec.Kanji c.toNat) ∧
    (isMBSymbol (String.utf8EncodeChar c) = true ↔ MBSymbol c.toNat) ∧
    (isMBLetter (String.utf8EncodeChar c) = true ↔ MBLetter c.toNat) ∧
    (isRecognizedUtf8 (String.utf8EncodeChar c) = true ↔ Recognized c.toNat) ∧
    (isMBPunctuation (String.utf8EncodeChar c) = true ↔ Punctuation c.toNat ∧ c ≠ '　') := by
  have h0 : ∀ x ∈ [c], x ≠ Char.ofNat 0 := by
    intro x hx e
    rw [List.mem_singleton] at hx
    exact h.1 (by rw [← hx, e]; rfl)
  have e : utf8Encode [c] = String.utf8EncodeChar c := by simp [utf8Encode]
  have hsp : c.toNat ≠ 0x3000 ↔ c ≠ '　' := by
    constructor
    · rintro h rfl; exact h rfl
    · intro h e; exact h (Char.toNat_inj.mp (by rw [e]; rfl))
  have := C12_single [c] h0
  simp only [e, List.map_cons, List.map_nil, oneOf_single, hsp] at this
  obtain ⟨a1, a2, _, a4, a5, a6, a7, a8, a9, a10⟩ := this
  exact ⟨a1, a2, a4, a5, a6, a7, a8, a9, a10⟩

theorem length_filter_wide (cs : List Char) (allow : Str → Bool) (p : Char → Bool)
    (h : ∀ c ∈ cs, (decide (128 ≤ c.toNat) && allow (String.utf8EncodeChar c)) = p c) :
    ((wideChars cs).filter allow).length = cs.countP p := by
  induction cs with
  | nil => rfl
  | cons c cs ih =>
    have ih := ih fun x hx => h x (by simp [hx])
    have hc := h c (by simp)
    have e : wideChars (c :: cs) = wideChars [c] ++ wideChars cs := wideChars_append [c] cs
    rw [e, List.filter_append, List.length_append, ih, List.countP_cons, ← hc, Nat.add_comm]
    congr 1
    by_cases h1 : 128 ≤ c.toNat
    · by_cases h2 : allow (String.utf8EncodeChar c) = true <;> simp [wideChars, h1, h2]
    · simp [wideChars, h1]

open Classical in
/-- The number of characters of each category is the number of characters of the text in the corresponding set of code
points. -/
theorem C176_numbers (ucd : Str → Bool) (name : Str) (n : Node) (cs : List Char) (ht : TreeText name n cs)
    (hs : ∀ x ∈ cs, Simple x) : ∀ p ∈ (categories ucd).zip (categoryCodes ucd),
    p.1.furigana = true ∨ '（' ∉ cs → (p.1.chars name n).length = cs.countP fun c => decide (p.2 c) := by
  intro p hp hb
  have h1 := congrArg List.length (C176_chars p.1 name n cs ht hs hb)
  rw [List.length_map] at h1
  rw [h1]
  refine length_filter_wide cs p.1.allow _ ?_
  intro c hc
  obtain ⟨a1, a2, a4, a5, a6, a7, a8, a9, a10⟩ := classes_char c (hs c hc)
  rw [Bool.eq_iff_iff, Bool.and_eq_true, decide_eq_true_iff, decide_eq_true_iff]
  simp only [categories, categoryCodes, List.zip_cons_cons, List.zip_nil_right, List.mem_cons, List.not_mem_nil,
    or_false] at hp
  rcases hp with rfl | rfl | rfl | rfl | rfl | rfl | rfl | rfl | rfl
  · simp only [a1, Hiragana]; omega
  · simp only [a2, Katakana]; omega
  · simp only [Bool.and_eq_true, a4, CommonKanji]; constructor
    · exact fun h => h.2
    · exact fun h => ⟨by omega, h⟩
  · simp only [Bool.and_eq_true, a5, RareKanji]; constructor
    · exact fun h => h.2
    · exact fun h => ⟨by omega, h⟩
  · simp only [Bool.and_eq_true, Bool.not_eq_true', a6, Spec.Kanji, CommonKanji, RareKanji, Bool.not_eq_true]; constructor
    · exact fun h => h.2
    · exact fun h => ⟨by omega, h⟩
  · simp only [a10, Punctuation]; constructor
    · exact fun h => h.2
    · exact fun h => ⟨by omega, h⟩
  · simp only [a7, MBSymbol]; omega
  · simp only [a8, MBLetter]; omega
  · simp only [← a9, Bool.not_eq_true', Bool.not_eq_true]

/-- Every multi-byte character of a text without brackets is in exactly one category, except for the wide space that is in
none. -/
theorem C176_once (ucd : Str → Bool) (name : Str) (n : Node) (cs : List Char) (ht : TreeText name n cs)
    (hs : ∀ x ∈ cs, Simple x) (hb : '（' ∉ cs) :
    ((categories ucd).map fun c => (c.chars name n).length).sum =
      cs.countP fun c => decide (128 ≤ c.toNat) && decide (c ≠ '　') := by
  have h1 : ∀ c : Category, (c.chars name n).length = ((wideChars cs).filter c.allow).length := fun c => by
    rw [← List.length_map (f := (·.1)), C176_chars c name n cs ht hs (.inr hb)]
    rfl
  simp only [h1]
  clear h1 hb ht
  induction cs with
  | nil => rfl
  | cons c cs ih =>
    have ih := ih fun x hx => hs x (by simp [hx])
    have e : wideChars (c :: cs) = wideChars [c] ++ wideChars cs := wideChars_append [c] cs
    have hsum : ∀ l : List Category, (l.map fun a => ((wideChars (c :: cs)).filter a.allow).length).sum =
        (l.map fun a => ((wideChars [c]).filter a.allow).length).sum +
        (l.map fun a => ((wideChars cs).filter a.allow).length).sum := by
      intro l
      induction l with
      | nil => rfl
      | cons a l ihl =>
        rw [List.map_cons, List.sum_cons, List.map_cons, List.sum_cons, List.map_cons, List.sum_cons, ihl, e,
          List.filter_append, List.length_append]
        omega
    rw [hsum, ih, List.countP_cons, Nat.add_comm]
    congr 1
    by_cases h : 128 ≤ c.toNat
    · have hw : wideChars [c] = [String.utf8EncodeChar c] := by simp [wideChars, h]
      have one : ∀ f : Str → Bool, (([String.utf8EncodeChar c].filter f).length) =
          if f (String.utf8EncodeChar c) then 1 else 0 := by
        intro f
        by_cases hf : f (String.utf8EncodeChar c) = true <;> simp [hf]
      have hcount : (([c].map fun _ => (categories ucd).map fun a => ((wideChars [c]).filter a.allow).length).flatten).sum =
          (statCategories ucd (String.utf8EncodeChar c)).count true := by
        rw [hw]
        simp only [one, categories, List.map_cons, List.map_nil, List.flatten_cons, List.flatten_nil, List.append_nil,
          statCategories, List.sum_cons, List.sum_nil, List.count_cons, List.count_nil, beq_iff_eq]
        omega
      simp only [List.map_cons, List.map_nil, List.flatten_cons, List.flatten_nil, List.append_nil] at hcount
      rw [hcount]
      obtain ⟨h1, h2⟩ := C52_chars_partial ucd c h []
      rw [List.append_nil] at h1
      by_cases hsp : c = '　'
      · rw [hsp, h2]
        rfl
      · rw [h1 hsp]
        simp [h, hsp]
    · simp [wideChars, h, categories]

open Classical in
/-- Every kanji of a text is in exactly one of the three categories of kanji, whatever the Unicode file has. -/
theorem C176_kanji (ucd : Str → Bool) (name : Str) (n : Node) (cs : List Char) (ht : TreeText name n cs)
    (hs : ∀ x ∈ cs, Simple x) :
    (((categories ucd).filter (·.kanji)).map fun c => (c.chars name n).length).sum =
      cs.countP fun c => decide (Spec.Kanji c.toNat) := by
  have e : (categories ucd).filter (·.kanji) = ((categories ucd).drop 2).take 3 := rfl
  have h1 : ∀ c : Category, c.furigana = true → (c.chars name n).length = (wideChars cs).countP c.allow := fun c hc => by
    rw [List.countP_eq_length_filter, ← List.length_map (f := (·.1)), C176_chars c name n cs ht hs (.inl hc)]
    rfl
  have e2 : cs.countP (fun c => decide (Spec.Kanji c.toNat)) = (wideChars cs).countP (isKanji ·) := by
    rw [List.countP_eq_length_filter (l := wideChars cs)]
    refine (length_filter_wide cs _ _ fun c hc => ?_).symm
    obtain ⟨_, _, _, _, a6, _⟩ := classes_char c (hs c hc)
    rw [Bool.eq_iff_iff, Bool.and_eq_true, decide_eq_true_iff, decide_eq_true_iff, a6]
    simp only [Spec.Kanji, CommonKanji, RareKanji]
    omega
  rw [e, e2]
  simp only [categories, List.drop_succ_cons, List.drop_zero, List.take_succ_cons, List.take_zero, List.map_cons,
    List.map_nil, List.sum_cons, List.sum_nil]
  rw [h1 _ rfl, h1 _ rfl, h1 _ rfl]
  simp only
  generalize wideChars cs = l
  induction l with
  | nil => rfl
  | cons x l ih =>
    simp only [List.countP_cons]
    rw [← ih]
    have h3 : isKanji x = (isCommonKanji x || isRareKanji x) := (C12_unions x true).2
    have h4 : ¬ (isCommonKanji x = true ∧ isRareKanji x = true) := by
      have := C12_disjoint x true true
      simp only [classes, List.pairwise_cons, List.mem_cons, List.not_mem_nil, or_false] at this
      exact this.2.2.1 _ (.inl rfl)
    have key : ∀ a b k u : Bool, k = (a || b) → ¬ (a = true ∧ b = true) →
        (if (a && u) = true then 1 else 0) + (if (b && u) = true then 1 else 0) + (if (k && !u) = true then 1 else 0) =
          if k = true then 1 else 0 := by decide
    have := key _ _ _ (ucd x) h3 h4
    rw [← this]
    omega


/-- A directory with a file: two Hiragana, three kanji (one of them in the name of the file), a wide space and a line end. -/
example : TreeText (u8!"d") (.dir (.cons (u8!"字.txt") (.file (u8!"漢字　\nかな")) .nil))
    ['漢', '字', '　', '\n', 'か', 'な', '字', '.', 't', 'x', 't', 'd'] :=
  ⟨['漢', '字', '　', '\n', 'か', 'な', '字', '.', 't', 'x', 't'], ['d'],
    ⟨_, [], ⟨['漢', '字', '　', '\n', 'か', 'な'], ['字', '.', 't', 'x', 't'], by decide +kernel, by decide +kernel, rfl⟩, rfl,
      by simp⟩, by decide +kernel, rfl⟩

example : ∀ x ∈ ['漢', '字', '　', '\n', 'か', 'な', '字', '.', 't', 'x', 't', 'd'], Simple x := by
  unfold Simple IsSelector IsKanaMark
  decide

end KT
