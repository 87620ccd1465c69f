import Verif.Props.UcdScript
import Verif.Props.UcdData
import Verif.Props.KanjiRows
import Verif.Props.QuizLauncher
import Verif.Props.DataTexts
/-!
# Lemmas for loading the generated UCD file
-/
namespace KT
open Spec

/-! ## Fields -/

theorem split_without (d : UInt8) (w : Str) (h : d ∉ w) : split d w = [w] := by
  induction w with
  | nil => rfl
  | cons b w ih =>
    rw [split, if_neg (by intro e; exact h (by simp [e])), ih (fun x => h (by simp [x]))]

theorem split_append (d : UInt8) (w s : Str) (h : d ∉ w) : split d (w ++ d :: s) = w :: split d s := by
  induction w with
  | nil => rw [List.nil_append, split, if_pos rfl]
  | cons b w ih =>
    rw [List.cons_append, split, if_neg (by intro e; exact h (by simp [e])), ih (fun x => h (by simp [x]))]

/-- The fields of a text made of fields. -/
theorem split_fields (d : UInt8) (ws : List Str) (hne : ws ≠ []) (h : ∀ w ∈ ws, d ∉ w) :
    split d ([d].intercalate ws) = ws := by
  induction ws with
  | nil => exact absurd rfl hne
  | cons w ws ih =>
    cases ws with
    | nil => rw [List.intercalate_singleton]; exact split_without d w (h w (by simp))
    | cons v ws =>
      rw [List.intercalate_cons_cons, List.append_assoc, List.singleton_append, split_append d w _ (h w (by simp)),
        ih (by simp) fun x hx => h x (by simp [hx])]

theorem dropEmptyLast_fields (ws : List Str) (h : ∀ w ∈ ws, w ≠ []) : dropEmptyLast ws = ws := by
  unfold dropEmptyLast
  rw [if_neg]
  intro e
  exact h [] (List.mem_of_getLast? e) rfl

theorem commaFields_commas (ws : List Str) (h : ∀ w ∈ ws, 0x2c ∉ w ∧ w ≠ []) : commaFields (commas ws) = ws := by
  unfold commaFields commas
  cases ws with
  | nil => rfl
  | cons w ws =>
    rw [split_fields 0x2c (w :: ws) (by simp) fun x hx => (h x hx).1]
    exact dropEmptyLast_fields _ fun x hx => (h x hx).2

theorem commas_nil (ws : List Str) (h : ∀ w ∈ ws, w ≠ []) : commas ws = [] ↔ ws = [] := by
  cases ws with
  | nil => simp [commas]
  | cons w ws =>
    have := h w (by simp)
    cases ws with
    | nil => simpa [commas] using this
    | cons v ws => simp [commas]

/-- Lines that all end with a newline. -/
theorem textLines_lines (ls : List Str) (h : ∀ l ∈ ls, (0x0a : UInt8) ∉ l) :
    textLines (ls.flatMap fun l => l ++ u8!"\n") = ls := by
  have hs : ∀ ls : List Str, (∀ l ∈ ls, (0x0a : UInt8) ∉ l) →
      split 0x0a (ls.flatMap fun l => l ++ u8!"\n") = ls ++ [[]] := by
    intro ls h
    induction ls with
    | nil => rfl
    | cons l ls ih =>
      have e : (l :: ls).flatMap (fun l => l ++ u8!"\n") = l ++ 0x0a :: ls.flatMap fun l => l ++ u8!"\n" := by simp
      rw [e, split_append _ _ _ (h l (by simp)), ih fun x hx => h x (by simp [hx])]
      rfl
  unfold textLines
  rw [hs ls h]
  simp [dropEmptyLast]

/-! ## Names -/

theorem kanji_scalar {n : Nat} (h : Spec.Kanji n) : IsScalar n ∧ n ≠ 0 ∧ 127 < n := by
  simp only [Spec.Kanji, CommonKanji, RareKanji] at h
  unfold IsScalar
  omega

theorem enc_high (n : Nat) (h : 127 < n) : ∀ b ∈ enc n, 0x80 ≤ b.toNat := by
  intro b hb
  unfold enc at hb
  rw [if_neg (by omega)] at hb
  have u : ∀ k, k < 256 → (UInt8.ofNat k).toNat = k := by
    intro k hk; rw [UInt8.toNat_ofNat']; exact Nat.mod_eq_of_lt hk
  split at hb
  · simp only [List.mem_cons, List.not_mem_nil, or_false] at hb
    rcases hb with rfl | rfl <;> rw [u _ (by omega)] <;> omega
  · split at hb
    · simp only [List.mem_cons, List.not_mem_nil, or_false] at hb
      rcases hb with rfl | rfl | rfl <;> rw [u _ (by omega)] <;> omega
    · simp only [List.mem_cons, List.not_mem_nil, or_false] at hb
      rcases hb with rfl | rfl | rfl | rfl <;> rw [u _ (by omega)] <;> omega

theorem enc_not_nil (n : Nat) : enc n ≠ [] := by
  unfold enc
  repeat' split
  all_goals simp

theorem unicodeText_hex {s : Str} {n : Nat} (h : IsUnicodeText s n) (hs : UcdCode s) : hexValue s = n := by
  have := hexValue_read s 0 (List.all_eq_true.mpr hs.2)
  have h2 := h.2.2
  unfold readNumber at h2
  rw [if_neg (by simpa using hs.1)] at h2
  rw [this] at h2
  exact Option.some.inj h2

/-- The name of a kanji by its code. -/
theorem codeUtf8_kanji {s : Str} {n : Nat} (h : IsUnicodeText s n) (hs : UcdCode s) (hk : Spec.Kanji n) :
    KanjiEntry n (codeUtf8 s) ∧ (codeUtf8 s).length ≤ 4 ∧ codeUtf8 s ≠ [] ∧ ∀ b ∈ codeUtf8 s, 0x80 ≤ b.toNat := by
  obtain ⟨k1, k2, k3⟩ := kanji_scalar hk
  have e : codeUtf8 s = enc n := by
    unfold codeUtf8
    rw [unicodeText_hex h hs, toUtf8_scalars (by simpa using k1)]
    simp
  have d : decode (enc n) = [n] := by
    have := decode_of_decodes (flatMap_enc_no_zero (cs := [n]) (by simpa using k2)) (decodes_flatMap (by simpa using k1))
    simpa using this
  rw [e]
  refine ⟨⟨by have := enc_length_le n; omega, ?_, by rw [d]; rfl⟩, enc_length_le n, enc_not_nil n, enc_high n k3⟩
  rw [d]
  exact ⟨n, hk, .inl rfl⟩

/-! ## Numbers -/

theorem processU64_dec (n max : Nat) (hm : max < 2 ^ 64) (h0 : max ≠ 0) (h : n ≤ max) : processU64 (toDec n) max = .ok n := by
  rw [processU64_number (n := n) max h0 hm (by rw [readNumber_digits _ (toDec_digits n) (toDec_ne_nil n), toDec_value]), if_pos h]

theorem processU64_unlimited (n : Nat) (h : n < 2 ^ 64) : processU64 (toDec n) 0 = .ok n := by
  have hr : readNumber 10 (toDec n) = some n := by rw [readNumber_digits _ (toDec_digits n) (toDec_ne_nil n), toDec_value]
  have := C22_partial [] [] (toDec n) [] 0 n (by simp) (Or.inl rfl) hr (by simp)
  simp only [List.nil_append, List.append_nil] at this
  rw [this]
  have e : (([] : Str) = u8!"-") = False := by simp
  simp only [e, if_false]
  simp; omega

/-! ## An entry for a row -/

theorem describes_exists (row : UcdRow) (joyo jinmei : Bool) (radical : Nat) (type : LinkType) (strokes : Strokes)
    (id : MorohashiId) (h1 : row.on ≠ [] ∨ row.kun ≠ [] ∨ row.morohashiId ≠ [] ∨ row.jSource ≠ []) (h2 : row.name.length ≤ 4)
    (h3 : ∃ code, IsUnicodeText row.code code ∧ KanjiEntry code row.name)
    (h4 : processU64 row.radical 0 = .ok radical ∧ 1 ≤ radical ∧ radical ≤ 214)
    (h5 : row.joyo = if joyo then u8!"Y" else []) (h6 : row.jinmei = if jinmei then u8!"Y" else [])
    (h7 : joyo = true → jinmei = false ∧ row.meaning ≠ []) (h8 : LinkCells row joyo) (h9 : row.linkType = linkTypeText type)
    (h10 : StrokesMatch row strokes) (h11 : (∀ c ∈ row.sources, c ∈ validSources) ∧ row.sources.Nodup)
    (h12 : IsMorohashi row.morohashiId id) :
    ∃ u, DescribesUcd row u ∧ u.isJoyo = joyo ∧ u.isJinmei = jinmei ∧ u.radical = radical ∧ u.linkType = type ∧
      u.strokes = strokes ∧ u.morohashiId = id := by
  obtain ⟨r, hr⟩ := (C46_accepted row.sources joyo jinmei).1 h11
  let u : UcdRec :=
    { name := row.name, sources := r, linkType := type, links := commaFields row.linkNames, strokes := strokes
      block := row.block, version := row.version, pinyin := row.pinyin, radical := radical, morohashiId := id
      nelsonIds := row.nelsonIds, jSource := row.jSource, meaning := row.meaning, on := row.on, kun := row.kun }
  obtain ⟨p1, p2, p3⟩ := C46_printed row.sources joyo jinmei u.toUcd hr
  refine ⟨u, (describesUcd_iff row u).mpr ⟨h1, h2, radical, joyo, jinmei, h4.1, h4.2, ?_, ?_, fun h => (h7 h).1,
    fun h => (h7 h).2, h8, ⟨rfl, h3⟩, rfl, rfl, h9, h10, ⟨h11, p1, p2, p3⟩, h12, rfl, rfl, rfl, rfl, rfl, rfl, rfl, rfl⟩,
    p2, p3, rfl, rfl, rfl, rfl⟩
  · rw [h5]; cases joyo <;> decide
  · rw [h6]; cases jinmei <;> decide

end KT
