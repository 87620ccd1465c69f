import Verif.Model.UnicodeBlock
import Verif.Lemmas.Utf8Validate
import Verif.Spec.Unicode
/-! # Helper lemmas about character classes -/
namespace KT
open Spec

/-- Blocks in increasing order without overlap, none of them empty. -/
def Ordered : List Block → Prop
  | [] => True
  | [b] => b.start ≤ b.stop
  | a :: b :: t => a.start ≤ a.stop ∧ a.stop < b.start ∧ Ordered (b :: t)

instance Ordered.dec : ∀ t, Decidable (Ordered t)
  | [] => isTrue trivial
  | [b] => inferInstanceAs (Decidable (b.start ≤ b.stop))
  | a :: b :: t =>
    have := Ordered.dec (b :: t)
    inferInstanceAs (Decidable (a.start ≤ a.stop ∧ a.stop < b.start ∧ Ordered (b :: t)))

theorem Ordered.tail {b : Block} {t : List Block} (h : Ordered (b :: t)) : Ordered t := by
  cases t with
  | nil => trivial
  | cons c t => exact h.2.2

theorem Ordered.lt {b : Block} {t : List Block} (h : Ordered (b :: t)) :
    ∀ x ∈ t, b.start ≤ x.start := by
  induction t generalizing b with
  | nil => simp
  | cons c t ih =>
    intro x hx
    have := h.1
    have := h.2.1
    rcases List.mem_cons.mp hx with rfl | hx
    · omega
    · have := ih h.2.2 x hx; omega

theorem inRange_eq_any (c : Nat) (t : List Block) (h : Ordered t) :
    inRange c t = t.any (·.contains c) := by
  induction t with
  | nil => rfl
  | cons b t ih =>
    simp only [inRange, List.any_cons]
    split
    · rename_i hlt
      symm
      rw [Bool.or_eq_false_iff]
      constructor
      · simp [Block.contains]; omega
      · rw [List.any_eq_false]
        intro x hx
        have := h.lt x hx
        simp [Block.contains]; omega
    · split
      · rename_i h2; rw [h2]; rfl
      · rename_i h2
        rw [ih h.tail]
        simp at h2; rw [h2]; rfl

theorem inRanges_iff (c : Nat) (ts : List (List Block)) :
    inRanges c ts = true ↔ ∃ t ∈ ts, inRange c t = true := by
  induction ts with
  | nil => simp [inRanges]
  | cons t ts ih => simp [inRanges, ih]

theorem hiragana_iff (c : Nat) : inRange c hiraganaBlocks = true ↔ Hiragana c := by
  rw [inRange_eq_any c _ (by decide)]
  simp [hiraganaBlocks, Block.contains, Hiragana]
theorem katakana_iff (c : Nat) : inRange c katakanaBlocks = true ↔ Katakana c := by
  rw [inRange_eq_any c _ (by decide)]
  simp [katakanaBlocks, Block.contains, Katakana]
theorem commonKanji_iff (c : Nat) : inRange c commonKanjiBlocks = true ↔ CommonKanji c := by
  rw [inRange_eq_any c _ (by decide)]
  simp [commonKanjiBlocks, Block.contains, CommonKanji]
theorem rareKanji_iff (c : Nat) : inRange c rareKanjiBlocks = true ↔ RareKanji c := by
  rw [inRange_eq_any c _ (by decide)]
  simp [rareKanjiBlocks, Block.contains, RareKanji]
theorem punctuation_iff (c : Nat) : inRange c punctuationBlocks = true ↔ Punctuation c := by
  rw [inRange_eq_any c _ (by decide)]
  simp [punctuationBlocks, Block.contains, Punctuation]
theorem symbol_iff (c : Nat) : inRange c symbolBlocks = true ↔ MBSymbol c := by
  rw [inRange_eq_any c _ (by decide)]
  simp [symbolBlocks, Block.contains, MBSymbol]
  omega
theorem letter_iff (c : Nat) : inRange c letterBlocks = true ↔ MBLetter c := by
  rw [inRange_eq_any c _ (by decide)]
  simp [letterBlocks, Block.contains, MBLetter]
  omega
theorem nonSpacing_iff (c : Nat) : isNonSpacing c = true ↔ NonSpacing c := by
  have := inRange_eq_any c nonSpacingBlocks (by decide)
  simp only [isNonSpacing, NonSpacing, this]
  simp [nonSpacingBlocks, Block.contains, or_assoc]

/-- The tables `t` decide the class `X`. -/
def Decides (t : List (List Block)) (X : Nat → Prop) : Prop := ∀ c, inRanges c t = true ↔ X c

theorem decides_hiragana : Decides [hiraganaBlocks] Hiragana := fun c => by
  simp [inRanges, hiragana_iff]
theorem decides_katakana : Decides [katakanaBlocks] Katakana := fun c => by
  simp [inRanges, katakana_iff]
theorem decides_kana : Decides [hiraganaBlocks, katakanaBlocks] Kana := fun c => by
  simp [inRanges, hiragana_iff, katakana_iff, Kana]
theorem decides_commonKanji : Decides [commonKanjiBlocks] CommonKanji := fun c => by
  simp [inRanges, commonKanji_iff]
theorem decides_rareKanji : Decides [rareKanjiBlocks] RareKanji := fun c => by
  simp [inRanges, rareKanji_iff]
theorem decides_kanji : Decides [commonKanjiBlocks, rareKanjiBlocks] Kanji := fun c => by
  simp [inRanges, commonKanji_iff, rareKanji_iff, Kanji]
theorem decides_symbol : Decides [symbolBlocks] MBSymbol := fun c => by
  simp [inRanges, symbol_iff]
theorem decides_letter : Decides [letterBlocks] MBLetter := fun c => by
  simp [inRanges, letter_iff]
theorem decides_punctuation : Decides [punctuationBlocks] Punctuation := fun c => by
  simp [inRanges, punctuation_iff]
theorem decides_recognized : Decides recognizedBlocks Recognized := fun c => by
  simp only [recognizedBlocks, inRanges, hiragana_iff, commonKanji_iff, rareKanji_iff,
    katakana_iff, punctuation_iff, symbol_iff, letter_iff, Bool.or_eq_true, Recognized,
    Bool.false_eq_true, or_false]
  constructor <;> (intro h; rcases h with h|h|h|h|h|h|h <;> simp [h])

/-- `inWCharRange` only depends on the class of the first character. -/
theorem inWCharRange_first {s : Str} {so : Bool} {t : List (List Block)} {X : Nat → Prop}
    (hd : Decides t X) (h : inWCharRange s so t = true) : ∃ c r, decode s = c :: r ∧ X c := by
  unfold inWCharRange at h
  split at h
  · split at h
    · rw [decodeN_eq_take s 1 (by decide)] at h
      cases hs : decode s with
      | nil => rw [hs] at h; simp at h
      | cons c r => rw [hs] at h; simp at h; exact ⟨c, r, rfl, (hd c).mp h⟩
    · split at h
      · rw [decodeN_eq_take s 3 (by decide)] at h
        split at h
        · rename_i a ha
          cases hs : decode s with
          | nil => rw [hs] at ha; simp at ha
          | cons c r =>
            rw [hs] at ha; simp at ha
            exact ⟨c, r, rfl, by rw [ha.1]; exact (hd a).mp h⟩
        · rename_i a b ha
          cases hs : decode s with
          | nil => rw [hs] at ha; simp at ha
          | cons c r =>
            rw [hs] at ha; simp at ha
            rw [Bool.and_eq_true] at h
            exact ⟨c, r, rfl, by rw [ha.1]; exact (hd a).mp h.2⟩
        · simp at h
      · simp at h
  · simp at h

theorem inWCharRange_iff_false (s : Str) {t : List (List Block)} {X : Nat → Prop}
    (hd : Decides t X) : inWCharRange s false t = true ↔
      s.length > 1 ∧ ∃ c r, decode s = c :: r ∧ X c := by
  constructor
  · intro h
    refine ⟨?_, inWCharRange_first hd h⟩
    unfold inWCharRange at h
    split at h
    · assumption
    · simp at h
  · rintro ⟨h1, c, r, h2, h3⟩
    unfold inWCharRange
    rw [if_pos h1, if_pos rfl, decodeN_eq_take s 1 (by decide), h2]
    simpa using (hd c).mpr h3

theorem inWCharRange_iff_true (s : Str) {t : List (List Block)} {X : Nat → Prop}
    (hd : Decides t X) : inWCharRange s true t = true ↔
      s.length > 1 ∧ s.length ≤ 8 ∧ OneOf X (decode s) := by
  unfold inWCharRange
  by_cases h1 : s.length > 1
  · rw [if_pos h1, if_neg (by decide)]
    by_cases h2 : s.length ≤ 4 * 2
    · rw [if_pos h2, decodeN_eq_take s 3 (by decide)]
      have : s.length > 1 ∧ s.length ≤ 8 ∧ OneOf X (decode s) ↔ OneOf X (decode s) :=
        ⟨fun h => h.2.2, fun h => ⟨h1, h2, h⟩⟩
      rw [this]
      unfold OneOf
      match hs : decode s with
      | [] => simp
      | [a] => simp [hd a]
      | [a, b] =>
        have e : List.take 3 [a, b] = [a, b] := rfl
        rw [e]
        show (isNonSpacing b && inRanges a t) = true ↔ _
        rw [Bool.and_eq_true, hd a, nonSpacing_iff]
        constructor
        · rintro ⟨h3, h4⟩
          exact ⟨a, h4, Or.inr ⟨b, h3, rfl⟩⟩
        · rintro ⟨c, hc, h | ⟨m, hm, h⟩⟩
          · simp at h
          · simp at h
            rw [h.1, h.2]; exact ⟨hm, hc⟩
      | a :: b :: c :: r => simp
    · rw [if_neg h2]
      simp; omega
  · rw [if_neg h1]
    simp; omega

theorem enc_length_le (c : Nat) : (enc c).length ≤ 4 := by
  unfold enc; repeat' split
  all_goals simp

theorem enc_length_gt {c : Nat} (h : 128 ≤ c) : 2 ≤ (enc c).length := by
  unfold enc; repeat' split
  all_goals simp
  omega

theorem flatMap_enc_length (cs : List Nat) : (cs.flatMap enc).length ≤ 4 * cs.length := by
  induction cs with
  | nil => simp
  | cons c cs ih =>
    have := enc_length_le c
    simp only [List.flatMap_cons, List.length_append, List.length_cons]; omega

theorem utf8Encode_eq (cs : List Char) : utf8Encode cs = (cs.map Char.toNat).flatMap enc := by
  rw [utf8Encode, List.flatMap_map]; rfl

/-- The loop decides the greedy reading of "characters with optional marks"; without overlap of class
and marks this is `AllOf`. -/
theorem allLoop_sound {t : List (List Block)} {X : Nat → Prop} (hd : Decides t X) (cs : List Nat) :
    (allInRangeLoop t false cs = true → AllOf X cs) ∧
    (allInRangeLoop t true cs = true →
      AllOf X cs ∨ ∃ m r, cs = m :: r ∧ NonSpacing m ∧ AllOf X r) := by
  induction cs with
  | nil => exact ⟨fun _ => .nil, fun _ => Or.inl .nil⟩
  | cons c cs ih =>
    have base : inRanges c t = true → allInRangeLoop t true cs = true → AllOf X (c :: cs) := by
      intro h1 h2
      rcases ih.2 h2 with h | ⟨m, r, rfl, hm, h⟩
      · exact .char ((hd c).mp h1) h
      · exact .marked ((hd c).mp h1) hm h
    constructor
    · intro h
      simp only [allInRangeLoop, Bool.false_and, Bool.false_eq_true, if_false] at h
      split at h
      · rename_i h1; exact base h1 h
      · simp at h
    · intro h
      simp only [allInRangeLoop, Bool.true_and] at h
      split at h
      · rename_i h1
        exact Or.inr ⟨c, cs, rfl, (nonSpacing_iff c).mp h1, ih.1 h⟩
      · split at h
        · rename_i h1; exact Or.inl (base h1 h)
        · simp at h

theorem allLoop_mono {t : List (List Block)} {X : Nat → Prop} (hd : Decides t X)
    (hno : ∀ c, X c → ¬ NonSpacing c) (cs : List Nat)
    (h : allInRangeLoop t false cs = true) : allInRangeLoop t true cs = true := by
  cases cs with
  | nil => rfl
  | cons c cs =>
    simp only [allInRangeLoop, Bool.false_and, Bool.false_eq_true, if_false] at h
    split at h
    · rename_i h1
      have h2 : isNonSpacing c = false := by
        cases hq : isNonSpacing c with
        | false => rfl
        | true => exact absurd ((nonSpacing_iff c).mp hq) (hno c ((hd c).mp h1))
      simp [allInRangeLoop, h1, h2, h]
    · simp at h

theorem allLoop_complete {t : List (List Block)} {X : Nat → Prop} (hd : Decides t X)
    (hno : ∀ c, X c → ¬ NonSpacing c) (cs : List Nat) (h : AllOf X cs) :
    allInRangeLoop t false cs = true := by
  induction h with
  | nil => rfl
  | char hc _ ih =>
    simp only [allInRangeLoop, Bool.false_and, Bool.false_eq_true, if_false, (hd _).mpr hc,
      if_true]
    exact allLoop_mono hd hno _ ih
  | marked hc hm _ ih =>
    simp only [allInRangeLoop, Bool.false_and, Bool.false_eq_true, if_false, (hd _).mpr hc,
      if_true, (nonSpacing_iff _).mpr hm, Bool.true_and]
    exact ih

theorem allOf_append {X : Nat → Prop} {a b : List Nat} (ha : AllOf X a) (hb : AllOf X b) :
    AllOf X (a ++ b) := by
  induction ha with
  | nil => simpa using hb
  | char h _ ih => exact .char h ih
  | marked h hm _ ih => exact .marked h hm ih

/-- A string whose first character is malformed decodes to U+FFFD first. -/
theorem decode_malformed {s : Str} (h : ∀ c : Char, ¬ StartsWith s c) (h0 : s ≠ []) :
    ∃ r, decode s = 0xfffd :: r := by
  cases s with
  | nil => exact absurd rfl h0
  | cons b s =>
    have hb : b ≠ 0 := by
      rintro rfl
      apply h (Char.ofNat 0)
      rw [startsWith_enc]
      exact ⟨s, rfl⟩
    have hc : cStr (b :: s) = b :: cStr s := by simp [cStr, hb]
    have hd := decodes_decode (b :: s)
    have hpre : cStr (b :: s) <+: b :: s := List.takeWhile_prefix _
    generalize ha : cStr (b :: s) = a at hd hpre
    generalize decode (b :: s) = cs at hd
    cases hd with
    | nil => rw [hc] at ha; simp at ha
    | @cons p t c cs hp hs hor hloc ht =>
      rcases hor with hor | ⟨rfl, _⟩
      · exfalso
        apply h (charOf c hs)
        rw [startsWith_enc, charOf_toNat]
        obtain ⟨u, hu⟩ := hpre
        exact ⟨t ++ u, by rw [← hu, hor, List.append_assoc]⟩
      · exact ⟨cs, rfl⟩

theorem decode_enc_append {c : Nat} (hc : IsScalar c) (h0 : c ≠ 0) (r : Str) :
    decode (enc c ++ r) = c :: decode r := by
  have h1 := decodes_decode (enc c ++ r)
  rw [cStr_enc_append h0] at h1
  exact h1.unique (decodes_enc hc (decodes_decode r))

theorem toNat_ne_zero {c : Char} (h : c ≠ Char.ofNat 0) : c.toNat ≠ 0 := by
  intro h0
  apply h
  rw [← Char.ofNat_toNat c, h0]

theorem decode_utf8Encode {cs : List Char} (h : ∀ c ∈ cs, c ≠ Char.ofNat 0) :
    decode (utf8Encode cs) = cs.map Char.toNat := by
  rw [utf8Encode_eq]
  apply decode_of_decodes
  · apply flatMap_enc_no_zero
    intro c hc
    obtain ⟨d, hd, rfl⟩ := List.mem_map.mp hc
    exact toNat_ne_zero (h d hd)
  · apply decodes_flatMap
    intro c hc
    obtain ⟨d, hd, rfl⟩ := List.mem_map.mp hc
    exact char_isScalar d

/-- Without U+FFFD in the result the decoded bytes were well-formed. -/
theorem Decodes.eq_enc {a : Str} {cs : List Nat} (h : Decodes a cs) (hno : 0xfffd ∉ cs) :
    a = cs.flatMap enc := by
  induction h with
  | nil => rfl
  | @cons p t c cs hp hs hor hloc ht ih =>
    rw [List.mem_cons, not_or] at hno
    rcases hor with rfl | ⟨rfl, _⟩
    · rw [List.flatMap_cons, ← ih hno.2]
    · exact absurd rfl hno.1

theorem allOf_mem {X : Nat → Prop} {cs : List Nat} (h : AllOf X cs) :
    ∀ c ∈ cs, X c ∨ NonSpacing c := by
  induction h with
  | nil => simp
  | char h _ ih =>
    intro c hc; rcases List.mem_cons.mp hc with rfl | hc
    · exact Or.inl h
    · exact ih c hc
  | marked h hm _ ih =>
    intro c hc
    rcases List.mem_cons.mp hc with rfl | hc
    · exact Or.inl h
    · rcases List.mem_cons.mp hc with rfl | hc
      · exact Or.inr hm
      · exact ih c hc

theorem exists_chars {cs : List Nat} (h : ∀ c ∈ cs, IsScalar c) :
    ∃ ds : List Char, cs = ds.map Char.toNat := by
  induction cs with
  | nil => exact ⟨[], rfl⟩
  | cons c cs ih =>
    obtain ⟨ds, rfl⟩ := ih fun x hx => h x (by simp [hx])
    exact ⟨charOf c (h c (by simp)) :: ds, by simp [charOf_toNat]⟩

theorem cStr_of_decode {s : Str} (hno : 0xfffd ∉ decode s) : cStr s = (decode s).flatMap enc :=
  (decodes_decode s).eq_enc hno

theorem cStr_append_of_zero {a : Str} (h : (0 : UInt8) ∈ a) (b : Str) : cStr (a ++ b) = cStr a := by
  induction a with
  | nil => simp at h
  | cons x a ih =>
    by_cases hx : x = 0
    · subst hx; simp [cStr]
    · have : (0 : UInt8) ∈ a := by
        rcases List.mem_cons.mp h with h | h
        · exact absurd h.symm hx
        · exact h
      have := ih this
      simp only [cStr] at this ⊢
      rw [List.cons_append, List.takeWhile_cons, List.takeWhile_cons, this]

theorem cStr_append_of_no_zero {a : Str} (h : (0 : UInt8) ∉ a) (b : Str) :
    cStr (a ++ b) = a ++ cStr b := by
  unfold cStr
  rw [List.takeWhile_append_of_pos]
  intro x hx
  have : x ≠ 0 := by rintro rfl; exact h hx
  simpa using this

theorem decodes_flatMap_append {cs : List Nat} (h : ∀ c ∈ cs, IsScalar c) {b : Str} {ds : List Nat}
    (hb : Decodes b ds) : Decodes (cs.flatMap enc ++ b) (cs ++ ds) := by
  induction cs with
  | nil => exact hb
  | cons c cs ih =>
    rw [List.flatMap_cons, List.append_assoc]
    exact decodes_enc (h c (by simp)) (ih fun x hx => h x (by simp [hx]))

theorem decode_append_cases {a b : Str} (hno : 0xfffd ∉ decode a) :
    decode (a ++ b) = decode a ∨ decode (a ++ b) = decode a ++ decode b := by
  by_cases h : (0 : UInt8) ∈ a
  · left
    have h1 := decodes_decode (a ++ b)
    rw [cStr_append_of_zero h] at h1
    exact h1.unique (decodes_decode a)
  · right
    have h1 := decodes_decode (a ++ b)
    rw [cStr_append_of_no_zero h] at h1
    have h2 := cStr_of_decode hno
    rw [cStr_of_no_zero h] at h2
    apply h1.unique
    have := decodes_flatMap_append (decodes_decode a).scalar (decodes_decode b)
    rwa [← h2] at this

end KT
