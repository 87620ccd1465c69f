import Verif.Lemmas.Kana
/-!
# Facts about the tables used by the converter
-/
namespace KT
open Spec

/-- The Hiragana or Katakana of a `Kana`. -/
def Kana.str (k : Kana) (t : CharType) : Str := if t = .hiragana then k.hiragana else k.katakana

theorem found_iff {t : CharType} (ht : t ≠ .romaji) {p : Str} {k : Kana} :
    findKana t p = some k ↔ k ∈ allKana ∧ p = k.str t := by
  rw [findKana_iff]
  cases t
  · simp [kanaKeys, Kana.str]
  · simp [kanaKeys, Kana.str]
  · exact absurd rfl ht

theorem found {t : CharType} (ht : t ≠ .romaji) {k : Kana} (hk : k ∈ allKana) :
    findKana t (k.str t) = some k := (found_iff ht).mpr ⟨hk, rfl⟩

theorem str_inj {t : CharType} (ht : t ≠ .romaji) {k j : Kana} (hk : k ∈ allKana) (hj : j ∈ allKana)
    (h : k.str t = j.str t) : k = j := by
  have h1 := found ht hk
  rw [h, found ht hj] at h1
  simpa using h1.symm

theorem smallTsu_mem : smallTsu ∈ allKana := by
  have : (allKana.any fun k => k == smallTsu) = true := by decide +kernel
  obtain ⟨k, hk, he⟩ := List.any_eq_true.mp this
  have : k = smallTsu := by simpa using he
  rw [← this]; exact hk
theorem kanaN_mem : kanaN ∈ allKana := by
  have : (allKana.any fun k => k == kanaN) = true := by decide +kernel
  obtain ⟨k, hk, he⟩ := List.any_eq_true.mp this
  have : k = kanaN := by simpa using he
  rw [← this]; exact hk

theorem hiragana_ne_katakana {k j : Kana} (hk : k ∈ allKana) (hj : j ∈ allKana) :
    k.katakana ≠ j.hiragana := by
  have h : allKana.all (fun k => !nmem (pack k.katakana) (allKana.map fun j => pack j.hiragana)) = true := by
    decide +kernel
  intro he
  have h := List.all_eq_true.mp h k hk
  rw [he] at h
  have : nmem (pack j.hiragana) (allKana.map fun j => pack j.hiragana) = true :=
    (nmem_iff _ _).mpr (List.mem_map.mpr ⟨j, hj, rfl⟩)
  rw [this] at h; exact absurd h (by decide)

theorem containsKana_iff {t : CharType} (ht : t ≠ .romaji) {j k : Kana} (hj : j ∈ allKana)
    (hk : k ∈ allKana) : j.containsKana (k.str t) = true ↔ k = j := by
  simp only [Kana.containsKana, Bool.or_eq_true, beq_iff_eq]
  constructor
  · intro h
    cases t with
    | hiragana =>
      simp only [Kana.str, if_true] at h
      rcases h with h | h
      · exact str_inj (t := .hiragana) (by simp) hk hj (by simpa [Kana.str] using h)
      · exact absurd h.symm (hiragana_ne_katakana hj hk)
    | katakana =>
      simp only [Kana.str, reduceCtorEq, if_false] at h
      rcases h with h | h
      · exact absurd h (hiragana_ne_katakana hk hj)
      · exact str_inj (t := .katakana) (by simp) hk hj (by simpa [Kana.str] using h)
    | romaji => exact absurd rfl ht
  · rintro rfl
    unfold Kana.str
    split <;> simp

theorem tokenKana_eq : tokenKana = allKana := by
  unfold tokenKana kanaMap
  induction allKana with
  | nil => rfl
  | cons k l ih =>
    simp only [List.flatMap_cons, kanaKeys, List.map_append, List.map_cons] at ih ⊢
    rw [ih]; rfl

/-- Small kana other than っ, ゕ and ゖ. -/
def Kana.small (k : Kana) : Bool := tokenClass k.romaji == .small
/-- Kana before which ん is separated by an apostrophe. -/
def Kana.afterN (k : Kana) : Bool := tokenClass k.romaji == .afterN

theorem mem_smallKana {t : CharType} (ht : t ≠ .romaji) {k : Kana} (hk : k ∈ allKana) :
    k.str t ∈ smallKana t ↔ k.small = true := by
  unfold smallKana
  rw [tokenKana_eq]
  simp only [List.mem_map, List.mem_filter]
  constructor
  · rintro ⟨j, ⟨hj, hc⟩, he⟩
    rw [← str_inj ht hj hk he]; exact hc
  · intro h; exact ⟨k, ⟨hk, h⟩, rfl⟩

theorem mem_afterN {t : CharType} (ht : t ≠ .romaji) {k : Kana} (hk : k ∈ allKana) :
    k.str t ∈ KT.afterN t ↔ k.afterN = true := by
  unfold KT.afterN
  rw [tokenKana_eq]
  simp only [List.mem_map, List.mem_filter]
  constructor
  · rintro ⟨j, ⟨hj, hc⟩, he⟩
    rw [← str_inj ht hj hk he]; exact hc
  · intro h; exact ⟨k, ⟨hk, h⟩, rfl⟩

/-- Each member of the two sets is the string of a kana. -/
theorem afterN_kana {t : CharType} {p : Str} (h : p ∈ KT.afterN t) :
    ∃ k ∈ allKana, p = k.str t ∧ k.afterN = true := by
  unfold KT.afterN at h
  rw [tokenKana_eq] at h
  simp only [List.mem_map, List.mem_filter] at h
  obtain ⟨j, ⟨hj, hc⟩, he⟩ := h
  exact ⟨j, hj, he.symm, hc⟩

theorem not_special {k : Kana} (h : k.small = true ∨ k.afterN = true) : k ≠ smallTsu ∧ k ≠ kanaN := by
  refine ⟨?_, ?_⟩ <;> (rintro rfl; revert h; decide)

/-- Consonants that can be doubled. -/
def repList : List UInt8 :=
  [0x6d, 0x72, 0x77, 0x71, 0x73, 0x74, 0x66, 0x79, 0x76, 0x6b, 0x67, 0x7a, 0x64, 0x6a, 0x63, 0x68,
   0x62, 0x70]

theorem rep_iff (b : UInt8) : b ∈ repeatingConsonants ↔ b ∈ repList := by
  have h1 : (repeatingConsonants.all fun b => repList.contains b) = true := by decide +kernel
  have h2 : (repList.all fun b => repeatingConsonants.contains b) = true := by decide +kernel
  constructor
  · intro h; have := List.all_eq_true.mp h1 b h; simpa using this
  · intro h; have := List.all_eq_true.mp h2 b h; simpa using this

/-! ## Lengths of letters -/

theorem str_length : ∀ k ∈ allKana, ∀ t, k.str t = [] → False := by
  intro k hk t
  have h : allKana.all (fun k => !k.hiragana.isEmpty && !k.katakana.isEmpty) = true := by decide +kernel
  have := List.all_eq_true.mp h k hk
  simp only [Bool.and_eq_true, Bool.not_eq_true', List.isEmpty_eq_false_iff] at this
  unfold Kana.str
  split
  · exact this.1
  · exact this.2

/-- The one-letter entries. -/
def Kana.mono (k : Kana) : Bool := k.hiragana.length == 3

theorem mono_length {k : Kana} (hk : k ∈ allKana) (t : CharType) :
    (k.str t).length = if k.mono then 3 else 6 := by
  have h : allKana.all (fun k => k.hiragana.length == k.katakana.length &&
    (k.hiragana.length == 3 || k.hiragana.length == 6)) = true := by decide +kernel
  have := List.all_eq_true.mp h k hk
  simp only [Bool.and_eq_true, beq_iff_eq, Bool.or_eq_true] at this
  unfold Kana.str Kana.mono
  split <;> split <;> simp_all

theorem mono_length3 {k : Kana} (hk : k ∈ allKana) (hm : k.mono = true) (t : CharType) :
    (k.str t).length = 3 := by rw [mono_length hk, hm]; rfl

theorem small_mono : ∀ k ∈ allKana, k.small = true → k.mono = true := by
  have h : allKana.all (fun k => !k.small || k.mono) = true := by decide +kernel
  intro k hk hs
  have := List.all_eq_true.mp h k hk
  simpa [hs] using this

/-! ## Romaji words -/

def isVowel (b : UInt8) : Bool := [0x61, 0x69, 0x75, 0x65, 0x6f].contains b

def sokuonLetter (a : UInt8) : UInt8 := if a = 0x63 then 0x74 else a

/-- Strings that must not be Romaji keys for the words of `k` to be read letter by letter. -/
def badWords (r : Str) : List Str :=
  match r with
  | [a, b] =>
    (if a ≠ 0x6e then [[a]] else []) ++ common a b
  | [a, b, _] =>
    (if a ≠ 0x6e then [[a]] else []) ++ [[a, b]] ++ common a b
  | _ => []
where
  common (a b : UInt8) : List Str :=
    (if a ≠ 0x6e ∧ a ≠ 0x79 then [[0x6e, a], [0x6e, a, b]] else []) ++
    (if a ∈ repList then
      let c := sokuonLetter a
      [[c], [c, a], [c, a, b], [0x6e, c], [0x6e, c, a]] else [])

def romajiKeys : List Nat := (kanaMap .romaji).map fun p => pack p.1

theorem romaji_none {s : Str} (h : nmem (pack s) romajiKeys = false) : findKana .romaji s = none := by
  cases hf : findKana .romaji s with
  | none => rfl
  | some k =>
    have := lookup_mem hf
    have : nmem (pack s) romajiKeys = true :=
      (nmem_iff _ _).mpr (List.mem_map.mpr ⟨_, this, rfl⟩)
    rw [h] at this; exact absurd this (by decide)

def letterOk (b : UInt8) : Bool := 0x61 ≤ b && b ≤ 0x7a

/-- Shape of the Romaji of an entry. -/
def shapeOk (k : Kana) : Bool :=
  match k.romaji with
  | [a] => letterOk a && (isVowel a || k == kanaN && a == 0x6e) && (!isVowel a || k.afterN)
  | [a, b] => letterOk a && letterOk b && isVowel b && !isVowel a && !k.romaji.all (· == 0x6e)
  | [a, b, d] => letterOk a && letterOk b && letterOk d && b != 0x6e && isVowel d && !isVowel a
  | _ => false

theorem shape_ok : ∀ k ∈ allKana, shapeOk k = true := by
  have h : allKana.all shapeOk = true := by decide +kernel
  exact List.all_eq_true.mp h

theorem bad_words : ∀ k ∈ allKana, ∀ s ∈ badWords k.romaji, findKana .romaji s = none := by
  have h : allKana.all (fun k => (badWords k.romaji).all fun s => !nmem (pack s) romajiKeys) = true := by
    decide +kernel
  intro k hk s hs
  have := List.all_eq_true.mp (List.all_eq_true.mp h k hk) s hs
  exact romaji_none (by simpa using this)

/-- A word that starts with `y` or a vowel belongs to kana that get an apostrophe after ん. -/
theorem y_afterN : ∀ k ∈ allKana, ∀ j ∈ allKana,
    (k.romaji.head? = some 0x79 ∨ k.romaji.length = 1 ∧ k ≠ kanaN) → k.hiragana.take 3 = j.hiragana →
    j.afterN = true := by
  have h : allKana.all (fun k => !(k.romaji.head? == some 0x79 || k.romaji.length == 1 && k != kanaN) ||
      (match findKana .hiragana (k.hiragana.take 3) with
        | some j => j.afterN
        | none => false)) = true := by decide +kernel
  intro k hk j hj hr he
  have := List.all_eq_true.mp h k hk
  rw [he, findKana_hiragana hj] at this
  simp only [Bool.or_eq_true, Bool.not_eq_true', Bool.or_eq_false_iff, Bool.and_eq_false_iff] at this
  rcases this with h | h
  · rcases hr with h1 | h1
    · simp [h1] at h
    · simp [h1] at h
  · exact h

/-! ## Delimiters -/

theorem delims_nodup : (delims.map Prod.fst).Nodup ∧ (delims.map Prod.snd).Nodup := by decide +kernel

theorem narrow_of_wide {s : Str} {b : UInt8} (h : wideDelimFind s = some b) :
    narrowDelimAt b = .ok s ∧ b ∈ narrowDelimList ∧ b ≠ apostrophe ∧ b ≠ dash := by
  have hm := lookup_mem h
  simp only [List.mem_map, Prod.mk.injEq] at hm
  obtain ⟨⟨x, y⟩, hd, rfl, rfl⟩ := hm
  have hall : ∀ p ∈ delims, narrowDelimAt p.1 = .ok p.2 ∧ p.1 ∈ narrowDelimList ∧ p.1 ≠ apostrophe ∧
      p.1 ≠ dash := by decide +kernel
  exact hall _ hd

theorem delim_not_letter : ∀ b ∈ narrowDelimList, letterOk b = false ∧ b.toNat < 128 ∧ b ≠ 0 := by decide +kernel

/-- Every delimiter other than apostrophe and dash has a wide form. -/
theorem narrowDelimAt_ok : ∀ b ∈ narrowDelimList, b ≠ apostrophe → b ≠ dash → ∃ w, narrowDelimAt b = .ok w := by
  have h : (narrowDelimList.all fun b => b == apostrophe || b == dash || (delims.lookup b).isSome) = true := by
    decide +kernel
  intro b hb h1 h2
  have := List.all_eq_true.mp h b hb
  simp only [Bool.or_eq_true, beq_iff_eq, h1, h2, false_or] at this
  unfold narrowDelimAt
  cases hl : delims.lookup b with
  | none => rw [hl] at this; simp at this
  | some w => exact ⟨w, rfl⟩

end KT
