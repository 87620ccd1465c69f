import Verif.Lemmas.Utf8Char
/-!
# C25, C65: the Kana tables

Specification: `Verif/Spec/Kana.lean`.  Model: `Verif/Model/KanaTable.lean` (the tables, generated
from the source text) and `Verif/Model/Kana.lean`.
-/
namespace KT
open Spec

/-! ## C25: the tables are unambiguous -/

/-- No key occurs twice. -/
theorem C25_keys_unique (t : CharType) : ((kanaMap t).map Prod.fst).Nodup := kanaMap_nodup t

/-- A lookup finds an entry exactly if the string is one of the entry's keys: each key finds the
entry it came from and nothing else is found. -/
theorem C25_lookup (t : CharType) (s : Str) (k : Kana) :
    findKana t s = some k ↔ k ∈ allKana ∧ s ∈ kanaKeys t k := findKana_iff

/-- The same, spelled out: a Rōmaji string finds the entry with this Rōmaji or variant, a Hiragana or
Katakana string the entry written this way. -/
theorem C25_keys (s : Str) (k : Kana) :
    (findKana .romaji s = some k ↔ k ∈ allKana ∧ (s = k.rec'.romaji ∨ s ∈ k.rec'.variants)) ∧
    (findKana .hiragana s = some k ↔ k ∈ allKana ∧ s = k.rec'.hiragana) ∧
    (findKana .katakana s = some k ↔ k ∈ allKana ∧ s = k.rec'.katakana) := by
  simp only [C25_lookup, kanaKeys, List.mem_cons, List.not_mem_nil, or_false, Kana.romaji, Kana.hiragana,
    Kana.katakana, and_self]

/-- The entries are pairwise different, so comparing them is the same as comparing pointers. -/
theorem C25_entries_unique : allKana.Nodup := by
  have h := kanaMap_nodup .hiragana
  have e : (kanaMap .hiragana).map Prod.fst = allKana.map Kana.hiragana := by
    unfold kanaMap
    induction allKana with
    | nil => rfl
    | cons k l ih => simp only [List.flatMap_cons, kanaKeys, List.map_append, List.map_cons] at ih ⊢
                     rw [ih]; rfl
  rw [e] at h
  exact (List.pairwise_map.mp h).imp fun hne he => hne (by rw [he])

/-- Codes of a string of three-byte characters. -/
def codes3 : Str → List Nat
  | a :: b :: c :: r => code3 [a, b, c] :: codes3 r
  | _ => []

/-- The Hiragana of an entry is one or two letters of the Hiragana block, its Katakana the letters
0x60 above them. -/
theorem C25_hiragana_katakana : ∀ k ∈ allKana, ∃ cs : List Nat,
    (cs.length = 1 ∨ cs.length = 2) ∧ (∀ c ∈ cs, 0x3041 ≤ c ∧ c ≤ 0x3096) ∧
    k.hiragana = cs.flatMap enc ∧ k.katakana = (cs.map (· + 0x60)).flatMap enc := by
  have h : allKana.all (fun k =>
      let cs := codes3 k.hiragana
      (cs.length == 1 || cs.length == 2) && cs.all (fun c => decide (0x3041 ≤ c ∧ c ≤ 0x3096)) &&
      k.hiragana == cs.flatMap enc && k.katakana == (cs.map (· + 0x60)).flatMap enc) = true := by
    decide +kernel
  intro k hk
  have := List.all_eq_true.mp h k hk
  simp only [Bool.and_eq_true, Bool.or_eq_true, beq_iff_eq, List.all_eq_true, decide_eq_true_eq] at this
  exact ⟨codes3 k.hiragana, this.1.1.1, this.1.1.2, this.1.2, this.2⟩

/-- Every Romaji key is one to three lower-case Ascii letters. -/
theorem C25_romaji_letters : ∀ k ∈ allKana, ∀ r ∈ kanaKeys .romaji k,
    1 ≤ r.length ∧ r.length ≤ 3 ∧ ∀ b ∈ r, 0x61 ≤ b ∧ b ≤ 0x7a := by
  have h : allKana.all (fun k => (kanaKeys .romaji k).all fun r =>
      decide (1 ≤ r.length) && decide (r.length ≤ 3) && r.all fun b => decide (0x61 ≤ b ∧ b ≤ 0x7a)) = true := by
    decide +kernel
  intro k hk r hr
  have := List.all_eq_true.mp (List.all_eq_true.mp h k hk) r hr
  simp only [Bool.and_eq_true, List.all_eq_true, decide_eq_true_eq] at this
  exact ⟨this.1.1, this.1.2, this.2⟩

/-- Every single Hiragana letter from U+3041 to U+3096 has an entry, with its Katakana counterpart. -/
theorem C25_letters_covered : ∀ n, 0x3041 ≤ n → n ≤ 0x3096 →
    (findKana .hiragana (enc n)).isSome = true ∧ (findKana .katakana (enc (n + 0x60))).isSome = true := by
  have h : ∀ i < 0x56, nmem (pack (enc (0x3041 + i))) (allKana.map fun k => pack k.hiragana) = true ∧
      nmem (pack (enc (0x3041 + i + 0x60))) (allKana.map fun k => pack k.katakana) = true := by
    decide +kernel
  intro n h1 h2
  obtain ⟨a, b⟩ := h (n - 0x3041) (by omega)
  rw [show 0x3041 + (n - 0x3041) = n by omega, nmem_iff, List.mem_map] at a b
  obtain ⟨k, hk, ek⟩ := a
  obtain ⟨k', hk', ek'⟩ := b
  rw [← pack_inj ek, ← pack_inj ek', findKana_hiragana hk, findKana_katakana hk']
  exact ⟨rfl, rfl⟩

example : (findKana .romaji (u8!"shi")).map Kana.hiragana = some u8!"し" ∧
    (findKana .hiragana (u8!"きゃ")).map Kana.katakana = some u8!"キャ" ∧
    findKana .romaji (u8!"xyz") = none := by decide +kernel

/-! ## C65: voiced and semi-voiced forms -/

theorem mem_allKana {k : Kana} : k ∈ allKana ↔
    match k with
    | .kana r => r ∈ kanaList
    | .dPlain a b => (a, b) ∈ dakutenKanaList
    | .dDakuten a b => (a, b) ∈ dakutenKanaList
    | .hPlain a b c => (a, b, c) ∈ hanDakutenKanaList
    | .hDakuten a b c => (a, b, c) ∈ hanDakutenKanaList
    | .hHanDakuten a b c => (a, b, c) ∈ hanDakutenKanaList := by
  cases k <;> simp [allKana] <;>
    exact ⟨fun ⟨a, b, c, h, h1, h2, h3⟩ => by rw [h1, h2, h3]; exact h,
      fun h => ⟨_, _, _, h, rfl, rfl, rfl⟩⟩

/-- The voiced form's plain version is the kana itself; it is in the table and known as voiced. -/
theorem C65_dakuten (k d : Kana) (hk : k ∈ allKana) (h : k.dakuten = some d) :
    d ∈ allKana ∧ d.plain = some k ∧ d.isDakuten = true ∧ d.isHanDakuten = false ∧
    k.isDakuten = false ∧ k.isHanDakuten = false ∧ k.plain = none := by
  have hv : allKana.all (fun k => k.dakuten.isNone || !(k.romaji.head? == some 0x76)) = true := by
    decide +kernel
  have hv := List.all_eq_true.mp hv k hk
  rw [mem_allKana] at hk ⊢
  cases k <;> simp only [Kana.dakuten, Option.some.injEq, reduceCtorEq] at h <;> subst h <;>
    simp_all [Kana.plain, Kana.isDakuten, Kana.isHanDakuten, Kana.dakuten, Kana.hanDakuten]

/-- The same for semi-voiced forms. -/
theorem C65_hanDakuten (k d : Kana) (hk : k ∈ allKana) (h : k.hanDakuten = some d) :
    d ∈ allKana ∧ d.plain = some k ∧ d.isHanDakuten = true ∧ d.isDakuten = false ∧
    k.dakuten ≠ none := by
  rw [mem_allKana] at hk ⊢
  cases k <;> simp only [Kana.hanDakuten, Option.some.injEq, reduceCtorEq] at h <;> subst h <;>
    simp_all [Kana.plain, Kana.isDakuten, Kana.isHanDakuten, Kana.dakuten, Kana.hanDakuten]

/-- Conversely a kana with a plain version is the voiced or the semi-voiced form of it. -/
theorem C65_plain (k p : Kana) (hk : k ∈ allKana) (h : k.plain = some p) :
    p ∈ allKana ∧ (p.dakuten = some k ∨ p.hanDakuten = some k) := by
  rw [mem_allKana] at hk ⊢
  cases k <;> simp only [Kana.plain, Option.some.injEq, reduceCtorEq] at h <;> subst h <;>
    simp_all [Kana.dakuten, Kana.hanDakuten]

/-- The string lookups agree with the relation, for letters and digraphs of both scripts. -/
theorem C65_strings (k : Kana) (hk : k ∈ allKana) :
    findDakuten k.hiragana = k.dakuten.map Kana.hiragana ∧
    findDakuten k.katakana = k.dakuten.map Kana.katakana ∧
    findHanDakuten k.hiragana = k.hanDakuten.map Kana.hiragana ∧
    findHanDakuten k.katakana = k.hanDakuten.map Kana.katakana := by
  have hn : findKana .hiragana k.katakana = none := by
    apply findKana_none
    have h : allKana.all (fun k => !nmem (pack k.katakana) (allKana.map fun j => pack j.hiragana)) = true := by
      decide +kernel
    intro j hj hm
    have h := List.all_eq_true.mp h k hk
    simp only [kanaKeys, List.mem_singleton] at hm
    rw [hm] at h
    have : nmem (pack j.hiragana) (allKana.map fun j => pack j.hiragana) = true :=
      (nmem_iff _ _).mpr (List.mem_map.mpr ⟨j, hj, rfl⟩)
    rw [this] at h; exact absurd h (by decide)
  simp only [findDakuten, findHanDakuten, findKana_hiragana hk, findKana_katakana hk, hn,
    Kana.dakutenStr, Kana.hanDakutenStr, Kana.get]
  refine ⟨?_, ?_, ?_, ?_⟩ <;> first | (cases k.dakuten <;> rfl) | (cases k.hanDakuten <;> rfl)

/-- For single letters the lookups are the compositions with U+3099 and U+309A (any character). -/
theorem C65_letters (c : Char) :
    findDakuten (String.utf8EncodeChar c) = (compose c.toNat 0x3099).map enc ∧
    findHanDakuten (String.utf8EncodeChar c) = (compose c.toNat 0x309a).map enc :=
  ⟨findDakuten_enc (char_isScalar c), findHanDakuten_enc (char_isScalar c)⟩

/-- `isDakuten` and `isHanDakuten` classify every entry by its first letter. -/
theorem C65_classified : ∀ k ∈ allKana,
    k.isDakuten = ((kstRow ++ hRow).map (· + 1) ++ [0x3094]).contains (code3 (k.hiragana.take 3)) ∧
    k.isHanDakuten = (hRow.map (· + 2)).contains (code3 (k.hiragana.take 3)) := by
  have h : allKana.all (fun k =>
    k.isDakuten == ((kstRow ++ hRow).map (· + 1) ++ [0x3094]).contains (code3 (k.hiragana.take 3)) &&
    k.isHanDakuten == (hRow.map (· + 2)).contains (code3 (k.hiragana.take 3))) = true := by
    decide +kernel
  intro k hk
  have := List.all_eq_true.mp h k hk
  simpa only [Bool.and_eq_true, beq_iff_eq] using this

/-- `isSmall` holds exactly for the entries that consist of a small letter; `isMonograph` and
`isDigraph` tell one letter from two, and the second of two letters is small. -/
theorem C65_small : ∀ k ∈ allKana,
    k.isSmall = (k.isMonograph && smallRow.contains (code3 k.hiragana)) ∧
    k.isMonograph = !k.isDigraph ∧
    (k.isDigraph = true → smallRow.contains (code3 (k.hiragana.take 3)) = false ∧
      smallRow.contains (code3 (k.hiragana.drop 3)) = true) := by
  have h : allKana.all (fun k =>
    k.isSmall == (k.isMonograph && smallRow.contains (code3 k.hiragana)) &&
    k.isMonograph == !k.isDigraph &&
    (!k.isDigraph || (!smallRow.contains (code3 (k.hiragana.take 3)) &&
      smallRow.contains (code3 (k.hiragana.drop 3))))) = true := by
    decide +kernel
  intro k hk
  have h := List.all_eq_true.mp h k hk
  simp only [Bool.and_eq_true, beq_iff_eq] at h
  refine ⟨h.1.1, h.1.2, fun hd => ?_⟩
  have h2 := h.2
  rw [hd] at h2
  simpa using h2

example : (findKana .hiragana (u8!"は")).bind (fun k => k.hanDakuten.map Kana.romaji) = some u8!"pa" ∧
    findDakuten (u8!"キャ") = some (u8!"ギャ") := by decide +kernel

end KT
