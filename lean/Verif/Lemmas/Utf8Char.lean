import Verif.Model.Utf8Char
import Verif.Lemmas.Kana
/-!
# Lemmas about Utf8Char
-/
namespace KT
open Spec

theorem enc_bytes {c : Nat} (hc : IsScalar c) (h : 128 ≤ c) :
    (c ≤ 2047 ∧ ∃ b1 b2, enc c = [b1, b2] ∧ b1.toNat = c / 64 + 192 ∧ b2.toNat = c % 64 + 128) ∨
    (2048 ≤ c ∧ c ≤ 65535 ∧ ∃ b1 b2 b3, enc c = [b1, b2, b3] ∧ b1.toNat = c / 4096 + 224 ∧
      b2.toNat = c / 64 % 64 + 128 ∧ b3.toNat = c % 64 + 128) ∨
    (65536 ≤ c ∧ ∃ b1 b2 b3 b4, enc c = [b1, b2, b3, b4] ∧ b1.toNat = c / 262144 + 240 ∧
      b2.toNat = c / 4096 % 64 + 128 ∧ b3.toNat = c / 64 % 64 + 128 ∧ b4.toNat = c % 64 + 128) := by
  simp only [IsScalar] at hc
  unfold enc
  rw [if_neg (by omega)]
  split
  · refine Or.inl ⟨by omega, _, _, rfl, ?_, ?_⟩ <;> rw [toNat_ofNat_lt (by omega)] <;> omega
  · split
    · refine Or.inr (Or.inl ⟨by omega, by omega, _, _, _, rfl, ?_, ?_, ?_⟩) <;>
        rw [toNat_ofNat_lt (by omega)] <;> omega
    · refine Or.inr (Or.inr ⟨by omega, _, _, _, _, rfl, ?_, ?_, ?_, ?_⟩) <;>
        rw [toNat_ofNat_lt (by omega)] <;> omega

theorem bit6 : ∀ n < 256, 192 ≤ n → n.testBit 6 = true := by decide +kernel
theorem bit5 : ∀ n < 256, 192 ≤ n → (n.testBit 5 = decide (224 ≤ n)) := by decide +kernel
theorem bit4 : ∀ n < 256, 224 ≤ n → (n.testBit 4 = decide (240 ≤ n)) := by decide +kernel
theorem bit3 : ∀ n < 256, 240 ≤ n → (n.testBit 3 = decide (248 ≤ n)) := by decide +kernel

theorem getMBUtf8_enc {c : Nat} (hc : IsScalar c) (h : 128 ≤ c) (r : List UInt8) :
    getMBUtf8 (enc c ++ r) = some (enc c, r) := by
  have hc' := hc
  simp only [IsScalar] at hc'
  rcases enc_bytes hc h with ⟨_, b1, b2, he, h1, h2⟩ | ⟨_, _, b1, b2, b3, he, h1, h2, h3⟩ |
    ⟨_, b1, b2, b3, b4, he, h1, h2, h3, h4⟩
  · have e6 := bit6 _ b1.toNat_lt (by omega)
    have e5 := bit5 _ b1.toNat_lt (by omega)
    rw [he]
    simp [getMBUtf8, getMBLoop, e6, e5, show ¬ 224 ≤ b1.toNat by omega]
  · have e6 := bit6 _ b1.toNat_lt (by omega)
    have e5 := bit5 _ b1.toNat_lt (by omega)
    have e4 := bit4 _ b1.toNat_lt (by omega)
    rw [he]
    simp [getMBUtf8, getMBLoop, e6, e5, e4, show 224 ≤ b1.toNat by omega,
      show ¬ 240 ≤ b1.toNat by omega]
  · have e6 := bit6 _ b1.toNat_lt (by omega)
    have e5 := bit5 _ b1.toNat_lt (by omega)
    have e4 := bit4 _ b1.toNat_lt (by omega)
    have e3 := bit3 _ b1.toNat_lt (by omega)
    rw [he]
    simp [getMBUtf8, getMBLoop, e6, e5, e4, e3, show 224 ≤ b1.toNat by omega,
      show 240 ≤ b1.toNat by omega, show ¬ 248 ≤ b1.toNat by omega]

theorem byte_eq_iff (a b : UInt8) : a = b ↔ a.toNat = b.toNat := UInt8.toNat_inj.symm
theorem byte_le_iff (a b : UInt8) : a ≤ b ↔ a.toNat ≤ b.toNat := UInt8.le_iff_toNat_le

/-- A character is a variation selector exactly if it is in U+FE00..U+FE0F. -/
theorem isVariationSelector_enc {c : Nat} (hc : IsScalar c) (h : 128 ≤ c) (r : List UInt8) :
    isVariationSelector (enc c ++ r) = some (decide (0xfe00 ≤ c ∧ c ≤ 0xfe0f)) := by
  have hc' := hc
  simp only [IsScalar] at hc'
  rcases enc_bytes hc h with ⟨_, b1, b2, he, h1, h2⟩ | ⟨_, _, b1, b2, b3, he, h1, h2, h3⟩ |
    ⟨_, b1, b2, b3, b4, he, h1, h2, h3, h4⟩
  · rw [he]
    have : b1 ≠ 0xef := by rw [ne_eq, byte_eq_iff, h1]; show ¬ _ = 239; omega
    simp [isVariationSelector, this]; omega
  · rw [he]
    simp only [isVariationSelector, List.cons_append, List.nil_append, ne_eq, byte_eq_iff, h1, h2]
    show (if ¬ c / 4096 + 224 = 239 then _ else if ¬ c / 64 % 64 + 128 = 184 then _ else _) = _
    split
    · simp; omega
    · split
      · simp; omega
      · simp only [ge_iff_le, byte_le_iff, h3, Option.some.injEq]
        rw [Bool.eq_iff_iff]
        simp only [Bool.and_eq_true, decide_eq_true_eq]
        show (128 ≤ _ ∧ _ ≤ 143) ↔ _
        omega
  · rw [he]
    have : b1 ≠ 0xef := by rw [ne_eq, byte_eq_iff, h1]; show ¬ _ = 239; omega
    simp [isVariationSelector, this]; omega

/-- A character is a combining mark exactly if it is U+3099 or U+309A. -/
theorem isCombiningMark_enc {c : Nat} (hc : IsScalar c) (h : 128 ≤ c) (r : List UInt8) :
    isCombiningMark (enc c ++ r) = some (decide (c = 0x3099 ∨ c = 0x309a)) := by
  have hc' := hc
  simp only [IsScalar] at hc'
  rcases enc_bytes hc h with ⟨_, b1, b2, he, h1, h2⟩ | ⟨_, _, b1, b2, b3, he, h1, h2, h3⟩ |
    ⟨_, b1, b2, b3, b4, he, h1, h2, h3, h4⟩
  · rw [he]
    have : b1 ≠ 0xe3 := by rw [ne_eq, byte_eq_iff, h1]; show ¬ _ = 227; omega
    simp [isCombiningMark, this]; omega
  · rw [he]
    simp only [isCombiningMark, List.cons_append, List.nil_append, ne_eq, byte_eq_iff, h1, h2]
    show (if ¬ c / 4096 + 224 = 227 then _ else if ¬ c / 64 % 64 + 128 = 130 then _ else _) = _
    split
    · simp; omega
    · split
      · simp; omega
      · simp only [Option.some.injEq]
        rw [Bool.eq_iff_iff]
        simp only [Bool.or_eq_true, decide_eq_true_eq, beq_iff_eq, byte_eq_iff, h3]
        show (_ = 153 ∨ _ = 154) ↔ _
        omega
  · rw [he]
    have : b1 ≠ 0xe3 := by rw [ne_eq, byte_eq_iff, h1]; show ¬ _ = 227; omega
    simp [isCombiningMark, this]; omega

theorem isVariationSelector_char {c : Char} (h : 128 ≤ c.toNat) (r : List UInt8) :
    isVariationSelector (String.utf8EncodeChar c ++ r) = some (decide (IsSelector c)) := by
  rw [utf8EncodeChar_eq_enc, isVariationSelector_enc (char_isScalar c) h]; rfl

theorem isCombiningMark_char {c : Char} (h : 128 ≤ c.toNat) (r : List UInt8) :
    isCombiningMark (String.utf8EncodeChar c ++ r) = some (decide (IsKanaMark c)) := by
  rw [utf8EncodeChar_eq_enc, isCombiningMark_enc (char_isScalar c) h]; rfl

theorem isVariationSelector_ascii {b : UInt8} (h : b.toNat < 128) (r : List UInt8) :
    isVariationSelector (b :: r) = some false := by
  have : b ≠ 0xef := by rintro rfl; exact absurd h (by decide)
  simp [isVariationSelector, this]

theorem isCombiningMark_ascii {b : UInt8} (h : b.toNat < 128) (r : List UInt8) :
    isCombiningMark (b :: r) = some false := by
  have : b ≠ 0xe3 := by rintro rfl; exact absurd h (by decide)
  simp [isCombiningMark, this]

theorem validatePtr_char {c : Char} (h : 128 ≤ c.toNat) (r : Str) :
    validateMBUtf8Ptr (String.utf8EncodeChar c ++ r ++ [0]) = some (.valid, .valid) := by
  have hv := validateMB_enc (char_isScalar c) h r false
  rw [utf8EncodeChar_eq_enc]
  have hb : ∃ b t, enc c.toNat = b :: t ∧ 192 ≤ b.toNat := by
    have hc := char_isScalar c
    simp only [IsScalar] at hc
    rcases enc_bytes (char_isScalar c) h with ⟨_, b1, b2, he, h1, h2⟩ |
      ⟨_, _, b1, b2, b3, he, h1, h2, h3⟩ | ⟨_, b1, b2, b3, b4, he, h1, h2, h3, h4⟩
    · exact ⟨_, _, he, by omega⟩
    · exact ⟨_, _, he, by omega⟩
    · exact ⟨_, _, he, by omega⟩
  obtain ⟨b, t, he, hb⟩ := hb
  rw [he] at hv ⊢
  simp only [List.cons_append, validateMBUtf8Ptr] at hv ⊢
  rw [if_neg (by rw [and80 _ b.toNat_lt]; omega), if_neg (by rw [andC0 _ b.toNat_lt]; omega), hv]
  rfl

theorem validatePtr_ascii {b : UInt8} (h : b.toNat < 128) (r : List UInt8) :
    validateMBUtf8Ptr (b :: r) = some (.notMultiByte, .valid) := by
  simp only [validateMBUtf8Ptr]
  rw [if_pos ((and80 _ b.toNat_lt).mpr h)]

/-- A byte that doesn't start a character is not valid. -/
theorem validatePtr_bad {b : UInt8} {r : Str} (h : ∀ c : Char, ¬ StartsWith (b :: r) c) :
    ∃ e, validateMBUtf8Ptr (b :: r ++ [0]) = some (.notValid, e) := by
  have hb : 128 ≤ b.toNat := by
    apply Decidable.byContradiction
    intro hlt
    have hs : IsScalar b.toNat := by simp only [IsScalar]; omega
    apply h (charOf b.toNat hs)
    rw [startsWith_enc, charOf_toNat]
    exact ⟨r, by rw [enc, if_pos (by omega), byte_ofNat_toNat]; rfl⟩
  simp only [List.cons_append, validateMBUtf8Ptr]
  rw [if_neg (by rw [and80 _ b.toNat_lt]; omega)]
  split
  · exact ⟨_, rfl⟩
  · rename_i h2
    rw [andC0 _ b.toNat_lt] at h2
    rcases validateMB_cases b r false (by omega) with ⟨e, _, _, hv, _⟩ | ⟨c, r', hc, hge, hs, _⟩
    · exact ⟨e, hv⟩
    · exfalso
      apply h (charOf c hc)
      rw [startsWith_enc, charOf_toNat]
      exact ⟨r', hs⟩

/-! ## Reading strings as tokens -/

theorem encodeChar_ne_nil (c : Char) : String.utf8EncodeChar c ≠ [] := enc_ne_nil c.toNat

theorem encodeChar_ascii {c : Char} (h : c.toNat < 128) :
    String.utf8EncodeChar c = [UInt8.ofNat c.toNat] := by
  rw [utf8EncodeChar_eq_enc, enc, if_pos (by omega)]

theorem tokens_exists (s : Str) : ∃ ts, Tokens s ts := by
  generalize hn : s.length = n
  induction n using Nat.strongRecOn generalizing s with
  | ind n ih =>
    cases s with
    | nil => exact ⟨[], .nil⟩
    | cons b r =>
      by_cases h0 : b = 0
      · subst h0; exact ⟨[], .nul r⟩
      · by_cases hs : ∃ c : Char, StartsWith (b :: r) c
        · obtain ⟨c, t, ht⟩ := hs
          by_cases hc : c.toNat < 128
          · obtain ⟨ts, hts⟩ := ih r.length (by simp [← hn]) r rfl
            rw [encodeChar_ascii hc] at ht
            simp only [List.cons_append, List.nil_append, List.cons.injEq] at ht
            refine ⟨.ascii b :: ts, .ascii h0 ?_ hts⟩
            rw [← ht.1, toNat_ofNat_lt (by omega)]; exact hc
          · have hlen : t.length < n := by
              rw [← hn, ← ht, List.length_append]
              have := List.length_pos_iff.mpr (encodeChar_ne_nil c)
              omega
            obtain ⟨ts, hts⟩ := ih t.length hlen t rfl
            refine ⟨.char c :: ts, ?_⟩
            rw [← ht]
            exact .char (by omega) hts
        · obtain ⟨ts, hts⟩ := ih r.length (by simp [← hn]) r rfl
          exact ⟨.bad b :: ts, .bad (by simpa using hs) hts⟩

theorem tokens_length_le {s : Str} {ts : List Token} (h : Tokens s ts) : ts.length ≤ s.length := by
  induction h with
  | nil => simp
  | nul r => simp
  | ascii _ _ _ ih => simp; exact ih
  | @char c r ts _ _ ih =>
    have := List.length_pos_iff.mpr (encodeChar_ne_nil c)
    simp only [List.length_cons, List.length_append]; omega
  | bad _ _ ih => simp; exact ih

/-- Reading well-formed text gives its characters. -/
theorem tokens_utf8Encode (cs : List Char) (h0 : ∀ c ∈ cs, c.toNat ≠ 0) :
    Tokens (utf8Encode cs)
      (cs.map fun c => if c.toNat < 128 then .ascii (UInt8.ofNat c.toNat) else .char c) := by
  induction cs with
  | nil => exact .nil
  | cons c cs ih =>
    have ih := ih fun x hx => h0 x (by simp [hx])
    have hc0 := h0 c (by simp)
    simp only [List.map_cons, utf8Encode, List.flatMap_cons]
    split
    · rename_i h
      rw [encodeChar_ascii h]
      refine .ascii ?_ ?_ ih
      · intro he
        have := congrArg UInt8.toNat he
        rw [toNat_ofNat_lt (by omega)] at this
        exact hc0 this
      · rw [toNat_ofNat_lt (by omega)]; exact h
    · rename_i h; exact .char (by omega) ih

/-! ## Composition with combining marks -/

/-- Code of a three byte character. -/
def code3 : Str → Nat
  | [a, b, c] => (a.toNat - 224) * 4096 + (b.toNat - 128) * 64 + (c.toNat - 128)
  | _ => 0

theorem code3_enc {n : Nat} (hs : IsScalar n) (h : 2048 ≤ n) (h' : n ≤ 65535) :
    code3 (enc n) = n := by
  rcases enc_bytes hs (by omega) with ⟨_, _⟩ | ⟨_, _, b1, b2, b3, he, h1, h2, h3⟩ | ⟨_, _⟩
  · omega
  · have e : code3 [b1, b2, b3] =
        (b1.toNat - 224) * 4096 + (b2.toNat - 128) * 64 + (b3.toNat - 128) := rfl
    rw [he, e]; omega
  · omega

theorem enc_inj {a b : Nat} (ha : IsScalar a) (hb : IsScalar b) (h : enc a = enc b) : a = b := by
  have h1 := convertOne_enc ha []
  have h2 := convertOne_enc hb []
  rw [h, h2] at h1
  simp at h1; exact h1.symm

/-- A one letter entry of the tables: its letters are Hiragana and Katakana, and its voiced forms are
those of the specification. -/
def monoOk (k : Kana) : Bool :=
  k.hiragana.length == 6 && k.katakana.length == 6 ||
  (let h := code3 k.hiragana
   let t := code3 k.katakana
   decide (0x3041 ≤ h ∧ h ≤ 0x3096) && t == h + 0x60 && enc h == k.hiragana && enc t == k.katakana &&
   k.dakutenStr .hiragana == (kanaForm voicedHiragana h).map enc &&
   k.dakutenStr .katakana == (kanaForm voicedHiragana t).map enc &&
   k.hanDakutenStr .hiragana == (kanaForm semiVoicedHiragana h).map enc &&
   k.hanDakutenStr .katakana == (kanaForm semiVoicedHiragana t).map enc)

theorem allKana_monoOk : ∀ k ∈ allKana, monoOk k = true := by
  have h : allKana.all monoOk = true := by decide +kernel
  exact List.all_eq_true.mp h

/-- The letters that have a voiced form. -/
theorem voiced_found : ∀ n ∈ 0x3046 :: (kstRow ++ hRow),
    (findKana .hiragana (enc n)).isSome = true ∧
    (findKana .katakana (enc (n + 0x60))).isSome = true := by decide +kernel

theorem kanaForm_cases {f : Nat → Option Nat} {n d : Nat} (h : kanaForm f n = some d) :
    (∃ m, f n = some m) ∨ (0x60 ≤ n ∧ ∃ m, f (n - 0x60) = some m) := by
  unfold kanaForm at h
  split at h
  · rename_i m hm; exact Or.inl ⟨m, hm⟩
  · split at h
    · rename_i h60
      cases hf : f (n - 0x60) with
      | none => rw [hf] at h; simp at h
      | some m => exact Or.inr ⟨h60, m, rfl⟩
    · simp at h

theorem voicedHiragana_mem {n m : Nat} (h : voicedHiragana n = some m) :
    n ∈ 0x3046 :: (kstRow ++ hRow) := by
  unfold voicedHiragana at h
  split at h
  · rename_i h'; simp only [List.mem_cons, List.mem_append]; exact Or.inr h'
  · split at h
    · rename_i h'; simp [h']
    · simp at h

theorem semiVoicedHiragana_mem {n m : Nat} (h : semiVoicedHiragana n = some m) :
    n ∈ 0x3046 :: (kstRow ++ hRow) := by
  unfold semiVoicedHiragana at h
  split at h
  · rename_i h'; simp only [List.mem_cons, List.mem_append]; exact Or.inr (Or.inr h')
  · simp at h

/-- General form for the two kinds of marks. -/
theorem find_compose {n : Nat} (hn : IsScalar n) (f : Nat → Option Nat)
    (g : Kana → CharType → Option Str)
    (hg : ∀ k ∈ allKana, k.hiragana.length = 3 →
      g k .hiragana = (kanaForm f (code3 k.hiragana)).map enc ∧
      g k .katakana = (kanaForm f (code3 k.katakana)).map enc)
    (hf : ∀ n m, f n = some m → n ∈ 0x3046 :: (kstRow ++ hRow)) :
    (match findKana .hiragana (enc n) with
      | some k => g k .hiragana
      | none => match findKana .katakana (enc n) with
        | some k => g k .katakana
        | none => none) = (kanaForm f n).map enc := by
  have hle := enc_length_le n
  have aux : ∀ k ∈ allKana, (k.hiragana = enc n ∨ k.katakana = enc n) →
      k.hiragana.length = 3 ∧ (k.hiragana = enc n → code3 k.hiragana = n) ∧
      (k.katakana = enc n → code3 k.katakana = n) := by
    intro k hk hor
    have h := allKana_monoOk k hk
    simp only [monoOk, Bool.or_eq_true, Bool.and_eq_true, beq_iff_eq, decide_eq_true_eq] at h
    rcases h with ⟨h1, h2⟩ | h
    · rcases hor with h | h
      · rw [h] at h1; omega
      · rw [h] at h2; omega
    · obtain ⟨⟨⟨⟨⟨⟨⟨⟨hlo, hhi⟩, ht⟩, e1⟩, e2⟩, _⟩, _⟩, _⟩, _⟩ := h
      have s1 : IsScalar (code3 k.hiragana) := by simp only [IsScalar]; omega
      have s2 : IsScalar (code3 k.katakana) := by simp only [IsScalar]; omega
      refine ⟨?_, ?_, ?_⟩
      · rw [← e1]
        generalize code3 k.hiragana = x at hlo hhi
        unfold enc
        rw [if_neg (by omega), if_neg (by omega), if_pos (by omega)]; rfl
      · intro he; rw [← e1] at he; exact enc_inj s1 hn he
      · intro he; rw [← e2] at he; exact enc_inj s2 hn he
  cases h1 : findKana .hiragana (enc n) with
  | some k =>
    have hm := findKana_mem h1
    simp only [kanaKeys, List.mem_singleton] at hm
    have ha := aux k hm.1 (Or.inl hm.2.symm)
    simp only [(hg k hm.1 ha.1).1, ha.2.1 hm.2.symm]
  | none =>
    cases h2 : findKana .katakana (enc n) with
    | some k =>
      have hm := findKana_mem h2
      simp only [kanaKeys, List.mem_singleton] at hm
      have ha := aux k hm.1 (Or.inr hm.2.symm)
      simp only [(hg k hm.1 ha.1).2, ha.2.2 hm.2.symm]
    | none =>
      cases hk : kanaForm f n with
      | none => rfl
      | some d =>
        exfalso
        rcases kanaForm_cases hk with ⟨m, hm⟩ | ⟨h60, m, hm⟩
        · have := (voiced_found n (hf n m hm)).1
          rw [h1] at this; simp at this
        · have := (voiced_found _ (hf _ m hm)).2
          rw [Nat.sub_add_cancel h60, h2] at this; simp at this

/-- `findDakuten` is composition with U+3099. -/
theorem findDakuten_enc {n : Nat} (hn : IsScalar n) :
    findDakuten (enc n) = (compose n 0x3099).map enc := by
  unfold findDakuten
  refine Eq.trans (find_compose hn voicedHiragana Kana.dakutenStr ?_ (fun _ _ => voicedHiragana_mem)) rfl
  · intro k hk hl
    have h := allKana_monoOk k hk
    simp only [monoOk, Bool.or_eq_true, Bool.and_eq_true, beq_iff_eq, decide_eq_true_eq] at h
    rcases h with ⟨h1, h2⟩ | h
    · omega
    · exact ⟨h.1.1.1.2, h.1.1.2⟩

/-- `findHanDakuten` is composition with U+309A. -/
theorem findHanDakuten_enc {n : Nat} (hn : IsScalar n) :
    findHanDakuten (enc n) = (compose n 0x309a).map enc := by
  unfold findHanDakuten
  refine Eq.trans (find_compose hn semiVoicedHiragana Kana.hanDakutenStr ?_ (fun _ _ => semiVoicedHiragana_mem)) rfl
  · intro k hk hl
    have h := allKana_monoOk k hk
    simp only [monoOk, Bool.or_eq_true, Bool.and_eq_true, beq_iff_eq, decide_eq_true_eq] at h
    rcases h with ⟨h1, h2⟩ | h
    · omega
    · exact ⟨h.1.2, h.2⟩

/-- The composed letter is a character. -/
theorem compose_toNat {n m d : Nat} (h : compose n m = some d) : (Char.ofNat d).toNat = d := by
  have aux : ∀ (f : Nat → Option Nat), (∀ n m, f n = some m → m ≤ 0x3094) → ∀ n d,
      kanaForm f n = some d → d ≤ 0x30f4 := by
    intro f hf n d h
    unfold kanaForm at h
    split at h
    · rename_i m hm; cases h; have := hf _ _ hm; omega
    · split at h
      · cases hm : f (n - 0x60) with
        | none => rw [hm] at h; simp at h
        | some m => rw [hm] at h; have := hf _ _ hm; simp at h; omega
      · simp at h
  have b1 : ∀ n m, voicedHiragana n = some m → m ≤ 0x3094 := by
    intro n m h
    unfold voicedHiragana at h
    split at h
    · rename_i h'
      simp only [kstRow, hRow, List.mem_cons, List.not_mem_nil, or_false] at h'
      cases h; omega
    · split at h
      · cases h; omega
      · simp at h
  have b2 : ∀ n m, semiVoicedHiragana n = some m → m ≤ 0x3094 := by
    intro n m h
    unfold semiVoicedHiragana at h
    split at h
    · rename_i h'
      simp only [hRow, List.mem_cons, List.not_mem_nil, or_false] at h'
      cases h; omega
    · simp at h
  have hd : d ≤ 0x30f4 := by
    unfold compose at h
    split at h
    · exact aux _ b1 _ _ h
    · split at h
      · exact aux _ b2 _ _ h
      · simp at h
  have hs : IsScalar d := by simp only [IsScalar]; omega
  have := charOf_toNat d hs
  rw [← this]
  simp

/-! ## Iteration -/

theorem getMBUtf8_char {c : Char} (h : 128 ≤ c.toNat) (r : List UInt8) :
    getMBUtf8 (String.utf8EncodeChar c ++ r) = some (String.utf8EncodeChar c, r) :=
  getMBUtf8_enc (char_isScalar c) h r

theorem validResult_char {c : Char} (h : 128 ≤ c.toNat) (r : List UInt8) :
    validResult (String.utf8EncodeChar c ++ r) =
      some (!decide (IsSelector c ∨ IsKanaMark c), String.utf8EncodeChar c, r) := by
  simp only [validResult, getMBUtf8_char h, Option.bind_eq_bind, Option.bind_some,
    isVariationSelector_char h, isCombiningMark_char h]
  by_cases h1 : IsSelector c <;> by_cases h2 : IsKanaMark c <;> simp [h1, h2]

theorem peekVariant_char {c : Char} (h : 128 ≤ c.toNat) (r : Str) :
    peekVariant (String.utf8EncodeChar c ++ r ++ [0]) =
      some (decide (IsSelector c), String.utf8EncodeChar c) := by
  simp only [peekVariant, validatePtr_char h]
  simp only [List.append_assoc, Option.bind_eq_bind, Option.bind_some, getMBUtf8_char h,
    isVariationSelector_char h, if_true]

theorem peekVariant_other {r : Str} {ts : List Token} (h : Tokens r ts)
    (hn : ∀ v ts', ts ≠ .char v :: ts') : peekVariant (r ++ [0]) = some (false, []) := by
  cases h with
  | nil => rfl
  | nul r =>
    simp only [peekVariant, List.cons_append, validatePtr_ascii (b := 0) (by decide)]; rfl
  | ascii h0 hb ht => simp only [peekVariant, List.cons_append, validatePtr_ascii hb]; rfl
  | char hc ht => exact absurd rfl (hn _ _)
  | bad hb ht =>
    obtain ⟨e, he⟩ := validatePtr_bad hb
    simp only [peekVariant, he]; rfl

theorem advance_char {c : Char} (h : (String.utf8EncodeChar c).length = 3) (r : List UInt8) :
    advance varSelectorSize (String.utf8EncodeChar c ++ r) = some r := by
  rw [advance, if_pos (by rw [List.length_append, h, varSelectorSize]; omega)]
  exact congrArg some (List.drop_left' h)

theorem length_three {c : Char} (h : 2048 ≤ c.toNat) (h' : c.toNat ≤ 65535) :
    (String.utf8EncodeChar c).length = 3 := by
  rw [utf8EncodeChar_eq_enc]
  unfold enc
  rw [if_neg (by omega), if_neg (by omega), if_pos h']; rfl

theorem selector_length {c : Char} (h : IsSelector c) : (String.utf8EncodeChar c).length = 3 := by
  unfold IsSelector at h; exact length_three (by omega) (by omega)
theorem mark_length {c : Char} (h : IsKanaMark c) : (String.utf8EncodeChar c).length = 3 := by
  unfold IsKanaMark at h; exact length_three (by omega) (by omega)

theorem combiningVoiced_eq : combiningVoiced = enc 0x3099 := by decide
theorem combiningSemiVoiced_eq : combiningSemiVoiced = enc 0x309a := by decide

/-- `processOne` after a character that is not a mark. -/
theorem processOne_other (st : Utf8CharState) (cur : Str) {v : Char} (h : ¬ IsKanaMark v) :
    st.processOne cur (String.utf8EncodeChar v) = some (cur, st) := by
  have h1 : String.utf8EncodeChar v ≠ combiningVoiced := by
    rw [combiningVoiced_eq, utf8EncodeChar_eq_enc]
    intro he
    exact h (Or.inl (enc_inj (char_isScalar v) (by decide) he))
  have h2 : String.utf8EncodeChar v ≠ combiningSemiVoiced := by
    rw [combiningSemiVoiced_eq, utf8EncodeChar_eq_enc]
    intro he
    exact h (Or.inr (enc_inj (char_isScalar v) (by decide) he))
  simp [Utf8CharState.processOne, h1, h2]

theorem processOne_nil (st : Utf8CharState) (cur : Str) : st.processOne cur [] = some (cur, st) := by
  rfl

theorem processOne_mark (st : Utf8CharState) (c : Char) {v : Char} (h : IsKanaMark v) (r : List UInt8)
    (hl : st.loc = String.utf8EncodeChar v ++ r) :
    st.processOne (String.utf8EncodeChar c) (String.utf8EncodeChar v) =
      some (match compose c.toNat v.toNat with
        | some d => (String.utf8EncodeChar (Char.ofNat d),
            { st with loc := r, combiningMarks := st.combiningMarks + 1 })
        | none => (String.utf8EncodeChar c, { st with loc := r, errors := st.errors + 1 })) := by
  have ha : advance varSelectorSize st.loc = some r := by rw [hl, advance_char (mark_length h)]
  have e1 : (String.utf8EncodeChar v = combiningVoiced) ↔ v.toNat = 0x3099 := by
    rw [combiningVoiced_eq, utf8EncodeChar_eq_enc]
    exact ⟨fun he => enc_inj (char_isScalar v) (by decide) he, fun he => by rw [he]⟩
  have e2 : (String.utf8EncodeChar v = combiningSemiVoiced) ↔ v.toNat = 0x309a := by
    rw [combiningSemiVoiced_eq, utf8EncodeChar_eq_enc]
    exact ⟨fun he => enc_inj (char_isScalar v) (by decide) he, fun he => by rw [he]⟩
  have key : ∀ o : Option Nat, (∀ d, o = some d → (Char.ofNat d).toNat = d) →
      st.combiningMark (String.utf8EncodeChar c) (o.map enc) =
      some (match o with
        | some d => (String.utf8EncodeChar (Char.ofNat d),
            { st with loc := r, combiningMarks := st.combiningMarks + 1 })
        | none => (String.utf8EncodeChar c, { st with loc := r, errors := st.errors + 1 })) := by
    intro o ho
    simp only [Utf8CharState.combiningMark, ha, Option.bind_eq_bind, Option.bind_some]
    cases o with
    | none => rfl
    | some d => simp only [Option.map_some]; rw [utf8EncodeChar_eq_enc, ho d rfl]
  unfold Utf8CharState.processOne
  rcases h with h | h
  · rw [if_pos (e1.mpr h), h, utf8EncodeChar_eq_enc, findDakuten_enc (char_isScalar c)]
    rw [← utf8EncodeChar_eq_enc]
    exact key _ fun d hd => compose_toNat hd
  · rw [if_neg (by rw [e1]; omega), if_pos (e2.mpr h), h, utf8EncodeChar_eq_enc,
      findHanDakuten_enc (char_isScalar c)]
    rw [← utf8EncodeChar_eq_enc]
    exact key _ fun d hd => compose_toNat hd

/-- What one call of `next` does, on the level of tokens. -/
def NextSpec (onlyMB : Bool) (s : Str) (ts : List Token) (st : Utf8CharState)
    (r : Option Str) (st' : Utf8CharState) : Prop :=
  ∃ s' ts', Tokens s' ts' ∧ st'.loc = s' ++ [0] ∧ s'.length ≤ s.length ∧
    (match r with
      | none => pieces onlyMB ts = [] ∧ ts' = []
      | some x => pieces onlyMB ts = x :: pieces onlyMB ts' ∧ s'.length < s.length) ∧
    st'.errors + (counts ts').errors = st.errors + (counts ts).errors ∧
    st'.variants + (counts ts').variants = st.variants + (counts ts).variants ∧
    st'.combiningMarks + (counts ts').marks = st.combiningMarks + (counts ts).marks

theorem nextLoop_char (onlyMB : Bool) {c : Char} (hc : 128 ≤ c.toNat) {r : Str} {ts : List Token}
    (ht : Tokens r ts) (fuel e v m : Nat) (hm : ¬ (IsSelector c ∨ IsKanaMark c)) :
    ∃ x st', nextLoop onlyMB (fuel + 1) ⟨String.utf8EncodeChar c ++ r ++ [0], e, v, m⟩ =
        some (some x, st') ∧
      NextSpec onlyMB (String.utf8EncodeChar c ++ r) (.char c :: ts)
        ⟨String.utf8EncodeChar c ++ r ++ [0], e, v, m⟩ (some x) st' := by
  have hlen := List.length_pos_iff.mpr (encodeChar_ne_nil c)
  obtain ⟨b, t, hbt⟩ : ∃ b t, String.utf8EncodeChar c = b :: t := by
    cases h : String.utf8EncodeChar c with
    | nil => exact absurd h (encodeChar_ne_nil c)
    | cons b t => exact ⟨b, t, rfl⟩
  have hb0 : b ≠ 0 := by
    have := enc_no_zero (c := c.toNat) (by omega)
    rw [← utf8EncodeChar_eq_enc, hbt] at this
    rintro rfl; simp at this
  have step : nextLoop onlyMB (fuel + 1) ⟨String.utf8EncodeChar c ++ r ++ [0], e, v, m⟩ =
      match peekVariant (r ++ [0]) with
            | none => none
            | some (true, nexChar) =>
              match advance varSelectorSize (r ++ [0]) with
              | none => none
              | some loc' =>
                some (some (String.utf8EncodeChar c ++ nexChar), ⟨loc', e, v + 1, m⟩)
            | some (false, nexChar) =>
              match (⟨r ++ [0], e, v, m⟩ : Utf8CharState).processOne (String.utf8EncodeChar c)
                  nexChar with
              | none => none
              | some (result, st') => some (some result, st') := by
    have hv := validatePtr_char hc r
    have hr := validResult_char hc (r ++ [0])
    rw [← List.append_assoc] at hr
    simp only [decide_eq_false hm, Bool.not_false] at hr
    unfold nextLoop
    simp only [hv, hr]
    simp only [hbt, List.cons_append, hb0, if_false]
    rfl
  rw [step]
  by_cases hnext : ∃ w ts', ts = .char w :: ts'
  · obtain ⟨w, ts', rfl⟩ := hnext
    cases ht with
    | @char _ r' _ hw ht' =>
    rw [peekVariant_char hw]
    by_cases hsel : IsSelector w
    · simp only [decide_eq_true hsel, List.append_assoc, advance_char (selector_length hsel)]
      refine ⟨_, _, rfl, r', ts', ht', rfl, ?_, ?_, ?_, ?_, ?_⟩
      · simp only [List.length_append]; omega
      · simp only [pieces, if_neg hm, if_pos hsel, List.length_append, true_and]; omega
      · simp only [counts, if_neg hm, if_pos hsel]
      · simp only [counts, if_neg hm, if_pos hsel]; omega
      · simp only [counts, if_neg hm, if_pos hsel]
    · simp only [decide_eq_false hsel]
      by_cases hmark : IsKanaMark w
      · rw [processOne_mark _ c hmark (r' ++ [0]) (by simp)]
        cases hcomp : compose c.toNat w.toNat with
        | some d =>
          refine ⟨_, _, rfl, r', ts', ht', rfl, ?_, ?_, ?_, ?_, ?_⟩
          · simp only [List.length_append]; omega
          · simp only [pieces, if_neg hm, if_neg hsel, if_pos hmark, hcomp, List.length_append,
              true_and]; omega
          · simp only [counts, if_neg hm, if_neg hsel, if_pos hmark, hcomp]
          · simp only [counts, if_neg hm, if_neg hsel, if_pos hmark, hcomp]
          · simp only [counts, if_neg hm, if_neg hsel, if_pos hmark, hcomp]; omega
        | none =>
          refine ⟨_, _, rfl, r', ts', ht', rfl, ?_, ?_, ?_, ?_, ?_⟩
          · simp only [List.length_append]; omega
          · simp only [pieces, if_neg hm, if_neg hsel, if_pos hmark, hcomp, List.length_append,
              true_and]; omega
          · simp only [counts, if_neg hm, if_neg hsel, if_pos hmark, hcomp]; omega
          · simp only [counts, if_neg hm, if_neg hsel, if_pos hmark, hcomp]
          · simp only [counts, if_neg hm, if_neg hsel, if_pos hmark, hcomp]
      · rw [processOne_other _ _ hmark]
        refine ⟨_, _, rfl, _, _, .char hw ht', rfl, ?_, ?_, ?_, ?_, ?_⟩
        · simp only [List.length_append]; omega
        · simp only [pieces.eq_4, if_neg hm, if_neg hsel, if_neg hmark, List.length_append, true_and]
          omega
        · simp only [counts.eq_4 c, if_neg hm, if_neg hsel, if_neg hmark]
        · simp only [counts.eq_4 c, if_neg hm, if_neg hsel, if_neg hmark]
        · simp only [counts.eq_4 c, if_neg hm, if_neg hsel, if_neg hmark]
  · have hn : ∀ w ts', ts ≠ .char w :: ts' := fun w ts' he => hnext ⟨w, ts', he⟩
    rw [peekVariant_other ht hn]
    simp only [processOne_nil]
    refine ⟨_, _, rfl, r, ts, ht, rfl, ?_, ?_, ?_, ?_, ?_⟩
    · simp only [List.length_append]; omega
    · refine ⟨?_, by simp only [List.length_append]; omega⟩
      cases ts with
      | nil => simp [pieces, hm]
      | cons t ts => cases t with
        | char w => exact absurd rfl (hn w ts)
        | ascii b => simp [pieces, hm]
        | bad b => simp [pieces, hm]
    all_goals
      cases ts with
      | nil => simp [counts, hm]
      | cons t ts => cases t with
        | char w => exact absurd rfl (hn w ts)
        | ascii b => simp [counts, hm]
        | bad b => simp [counts, hm]

theorem pieces_drop (onlyMB : Bool) {c : Char} (hm : IsSelector c ∨ IsKanaMark c) (ts : List Token) :
    pieces onlyMB (.char c :: ts) = pieces onlyMB ts := by
  cases ts with
  | nil => simp [pieces, hm]
  | cons t ts => cases t <;> simp [pieces.eq_4, pieces.eq_5, hm]

theorem counts_drop {c : Char} (hm : IsSelector c ∨ IsKanaMark c) (ts : List Token) :
    counts (.char c :: ts) = { counts ts with errors := (counts ts).errors + 1 } := by
  cases ts with
  | nil => simp [counts, hm]
  | cons t ts => cases t <;> simp [counts.eq_4, counts.eq_5, hm]

theorem nextLoop_tokens (onlyMB : Bool) {s : Str} {ts : List Token} (h : Tokens s ts) :
    ∀ (fuel e v m : Nat), s.length < fuel →
      ∃ r st', nextLoop onlyMB fuel ⟨s ++ [0], e, v, m⟩ = some (r, st') ∧
        NextSpec onlyMB s ts ⟨s ++ [0], e, v, m⟩ r st' := by
  induction h with
  | nil =>
    intro fuel e v m hf
    obtain ⟨fuel, rfl⟩ : ∃ f, fuel = f + 1 := ⟨fuel - 1, by omega⟩
    exact ⟨none, _, rfl, [], [], .nil, rfl, Nat.le_refl _, ⟨rfl, rfl⟩, rfl, rfl, rfl⟩
  | nul r =>
    intro fuel e v m hf
    obtain ⟨fuel, rfl⟩ : ∃ f, fuel = f + 1 := ⟨fuel - 1, by omega⟩
    exact ⟨none, _, rfl, 0 :: r, [], .nul r, rfl, Nat.le_refl _, ⟨rfl, rfl⟩, rfl, rfl, rfl⟩
  | @ascii b r ts h0 hb ht ih =>
    intro fuel e v m hf
    obtain ⟨fuel, rfl⟩ : ∃ f, fuel = f + 1 := ⟨fuel - 1, by omega⟩
    cases onlyMB with
    | false =>
      refine ⟨some [b], ⟨r ++ [0], e, v, m⟩, ?_, r, ts, ht, rfl, ?_, ?_, ?_⟩
      · simp only [nextLoop, List.cons_append, h0, if_false, validatePtr_ascii hb]
        rfl
      · simp
      · simp [pieces]
      · simp [counts]
    | true =>
      obtain ⟨x, st', h1, s', ts', h2, h3, h4, h5, h6⟩ :=
        ih fuel e v m (by simp at hf; omega)
      refine ⟨x, st', ?_, s', ts', h2, h3, ?_, ?_, ?_⟩
      · simp only [nextLoop, List.cons_append, h0, if_false, validatePtr_ascii hb]
        exact h1
      · simp; omega
      · cases x with
        | none => simpa [pieces] using h5
        | some x => simp only [pieces, List.length_cons]; exact ⟨h5.1, by omega⟩
      · simpa [counts] using h6
  | @bad b r ts hb ht ih =>
    intro fuel e v m hf
    obtain ⟨fuel, rfl⟩ : ∃ f, fuel = f + 1 := ⟨fuel - 1, by omega⟩
    have h0 : b ≠ 0 := by
      rintro rfl
      apply hb (Char.ofNat 0)
      exact ⟨r, rfl⟩
    obtain ⟨x, st', h1, s', ts', h2, h3, h4, h5, h6, h7, h8⟩ :=
      ih fuel (e + 1) v m (by simp at hf; omega)
    obtain ⟨er, her⟩ := validatePtr_bad hb
    refine ⟨x, st', ?_, s', ts', h2, h3, ?_, ?_, ?_, ?_, ?_⟩
    · simp only [List.cons_append] at her
      simp only [nextLoop, List.cons_append, h0, if_false, her]
      exact h1
    · simp; omega
    · cases x with
      | none => simpa [pieces] using h5
      | some x => simp only [pieces, List.length_cons]; exact ⟨h5.1, by omega⟩
    · simp only [counts]; simp only at h6; omega
    · simp only [counts]; exact h7
    · simp only [counts]; exact h8
  | @char c r ts hc ht ih =>
    intro fuel e v m hf
    obtain ⟨fuel, rfl⟩ : ∃ f, fuel = f + 1 := ⟨fuel - 1, by omega⟩
    by_cases hm : IsSelector c ∨ IsKanaMark c
    · have hlen := List.length_pos_iff.mpr (encodeChar_ne_nil c)
      obtain ⟨b, t, hbt⟩ : ∃ b t, String.utf8EncodeChar c = b :: t := by
        cases h : String.utf8EncodeChar c with
        | nil => exact absurd h (encodeChar_ne_nil c)
        | cons b t => exact ⟨b, t, rfl⟩
      have hb0 : b ≠ 0 := by
        have := enc_no_zero (c := c.toNat) (by omega)
        rw [← utf8EncodeChar_eq_enc, hbt] at this
        rintro rfl; simp at this
      have hv := validatePtr_char hc r
      have hr := validResult_char hc (r ++ [0])
      rw [← List.append_assoc] at hr
      simp only [decide_eq_true hm, Bool.not_true] at hr
      obtain ⟨x, st', h1, s', ts', h2, h3, h4, h5, h6, h7, h8⟩ :=
        ih fuel (e + 1) v m (by simp only [List.length_append] at hf; omega)
      refine ⟨x, st', ?_, s', ts', h2, h3, ?_, ?_, ?_, ?_, ?_⟩
      · unfold nextLoop
        simp only [hv, hr]
        simp only [hbt, List.cons_append, hb0, if_false]
        exact h1
      · simp; omega
      · rw [pieces_drop onlyMB hm]
        cases x with
        | none => exact h5
        | some x => exact ⟨h5.1, by simp only [List.length_append]; omega⟩
      · rw [counts_drop hm]; simp only at h6 ⊢; omega
      · rw [counts_drop hm]; exact h7
      · rw [counts_drop hm]; exact h8
    · obtain ⟨x, st', h1, h2⟩ := nextLoop_char onlyMB hc ht fuel e v m hm
      exact ⟨some x, st', h1, h2⟩

/-- Iterating to the end. -/
theorem iterate_tokens (onlyMB : Bool) : ∀ (fuel : Nat) (s : Str) (ts : List Token), Tokens s ts →
    ∀ (st : Utf8CharState), st.loc = s ++ [0] → s.length < fuel →
      ∃ st', iterate onlyMB fuel st = some (pieces onlyMB ts, st') ∧
        st'.errors = st.errors + (counts ts).errors ∧
        st'.variants = st.variants + (counts ts).variants ∧
        st'.combiningMarks = st.combiningMarks + (counts ts).marks := by
  intro fuel
  induction fuel with
  | zero => intro s ts _ st _ h; omega
  | succ fuel ih =>
    intro s ts h st hloc hf
    obtain ⟨loc, e, v, m⟩ := st
    simp only at hloc
    subst hloc
    obtain ⟨r, st', h1, s', ts', h2, h3, h4, h5, h6, h7, h8⟩ :=
      nextLoop_tokens onlyMB h (s ++ [0]).length e v m (by simp)
    simp only at h6 h7 h8
    have hn : (⟨s ++ [0], e, v, m⟩ : Utf8CharState).next onlyMB = some (r, st') := h1
    cases r with
    | none =>
      obtain ⟨h5, rfl⟩ := h5
      refine ⟨st', ?_, ?_, ?_, ?_⟩
      · simp only [iterate, hn, h5]
      · simp [counts] at h6; simp; omega
      · simp [counts] at h7; simp; omega
      · simp [counts] at h8; simp; omega
    | some x =>
      obtain ⟨h5, h5'⟩ := h5
      obtain ⟨st'', g1, g2, g3, g4⟩ := ih s' ts' h2 st' h3 (by omega)
      refine ⟨st'', ?_, ?_, ?_, ?_⟩
      · simp only [iterate, hn, g1, h5]
      · simp only; omega
      · simp only; omega
      · simp only; omega

/-- Iterating over a whole string. -/
theorem utf8Chars_tokens (onlyMB : Bool) {s : Str} {ts : List Token} (h : Tokens s ts) :
    ∃ st', utf8Chars s onlyMB = some (pieces onlyMB ts, st') ∧
      st'.errors = (counts ts).errors ∧ st'.variants = (counts ts).variants ∧
      st'.combiningMarks = (counts ts).marks := by
  obtain ⟨st', h1, h2, h3, h4⟩ :=
    iterate_tokens onlyMB (s.length + 1) s ts h (.init s) rfl (by omega)
  refine ⟨st', h1, ?_, ?_, ?_⟩
  · simpa [Utf8CharState.init] using h2
  · simpa [Utf8CharState.init] using h3
  · simpa [Utf8CharState.init] using h4

/-- `peek` finds what `next` returns. -/
theorem peekLoop_eq (onlyMB : Bool) : ∀ (fuel : Nat) (st : Utf8CharState) (r : Option Str)
    (st' : Utf8CharState), nextLoop onlyMB fuel st = some (r, st') →
      peekLoop onlyMB fuel st.loc = some r := by
  intro fuel
  induction fuel with
  | zero => intro st r st' h; simp [nextLoop] at h
  | succ fuel ih =>
    intro st r st' h
    unfold nextLoop at h
    unfold peekLoop
    cases hl : st.loc with
    | nil => rw [hl] at h; simp at h
    | cons b rest =>
      rw [hl] at h
      simp only at h ⊢
      split at h
      · rename_i hb; rw [if_pos hb]; simp only [Option.some.injEq, Prod.mk.injEq] at h; rw [h.1]
      · rename_i hb
        rw [if_neg hb]
        cases hv : validateMBUtf8Ptr (b :: rest) with
        | none => rw [hv] at h; simp at h
        | some p =>
          obtain ⟨p, e⟩ := p
          rw [hv] at h
          cases p with
          | notMultiByte =>
            simp only at h ⊢
            split at h
            · rename_i ho; rw [if_pos ho]; exact ih _ _ _ h
            · rename_i ho
              rw [if_neg ho]
              simp only [Option.some.injEq, Prod.mk.injEq] at h; rw [h.1]
          | notValid => simp only at h ⊢; exact ih _ _ _ h
          | valid =>
            simp only at h ⊢
            cases hr : validResult (b :: rest) with
            | none => rw [hr] at h; simp at h
            | some q =>
              obtain ⟨ok, cur, loc⟩ := q
              rw [hr] at h
              cases ok with
              | false => simp only at h ⊢; exact ih _ _ _ h
              | true =>
                simp only at h ⊢
                cases hp : peekVariant loc with
                | none => rw [hp] at h; simp at h
                | some w =>
                  obtain ⟨isv, nex⟩ := w
                  rw [hp] at h
                  cases isv with
                  | true =>
                    simp only at h ⊢
                    split at h
                    · simp at h
                    · simp only [Option.some.injEq, Prod.mk.injEq] at h; rw [h.1]
                  | false =>
                    simp only at h ⊢
                    unfold Utf8CharState.processOne Utf8CharState.combiningMark at h
                    unfold processOneConst
                    have hadv : ∀ (o : Option Str) (s : Utf8CharState) (x : Str × Utf8CharState),
                        (do let loc ← advance varSelectorSize s.loc
                            match o with
                            | some a => some (a, { s with loc := loc, combiningMarks := s.combiningMarks + 1 })
                            | none => some (cur, { s with loc := loc, errors := s.errors + 1 }) :
                            Option (Str × Utf8CharState)) = some x → x.1 = o.getD cur := by
                      intro o s x hx
                      cases ha : advance varSelectorSize s.loc with
                      | none => rw [ha] at hx; simp at hx
                      | some l =>
                        rw [ha] at hx
                        cases o <;> (simp at hx; rw [← hx]; rfl)
                    split at h
                    · simp at h
                    · rename_i res st2 heq
                      simp only [Option.some.injEq, Prod.mk.injEq] at h
                      rw [← h.1]
                      split at heq
                      · rename_i h1
                        rw [if_pos h1, ← hadv _ _ _ heq]
                      · rename_i h1
                        rw [if_neg h1]
                        split at heq
                        · rename_i h2
                          rw [if_pos h2, ← hadv _ _ _ heq]
                        · rename_i h2
                          rw [if_neg h2]
                          simp only [Option.some.injEq, Prod.mk.injEq] at heq
                          rw [heq.1]

end KT
