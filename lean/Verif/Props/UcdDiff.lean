import Verif.Lemmas.UcdDiffText
import Verif.Lemmas.UcdDiffLines
import Verif.Lemmas.UcdDiffArgs
/-!
# C200: fields and differences of characters in UCD files

`ucdDiff` shows the fields of the character given by its code or as itself, or the fields that are different for two
characters or in two versions of a file.
-/
namespace KT
open Spec

/-! ## Codes -/

/-- A word of ASCII characters is accepted exactly when it is a code, small letters are the same as capital letters. -/
theorem C200_code (w c : Str) (hn : w ≠ []) (hb : ∀ b ∈ w, 0x20 < b ∧ b < 0x7f) :
    diffCode w = .ok c ↔ GivenCode w ∧ c = w.map capital := by
  have h1 : shWords w = [w] := shWords_word w (fun b h => by
    have := (hb b h).1
    unfold isShBlank
    have h2 : b ≠ 0x20 := by rintro rfl; exact absurd this (by decide)
    have h3 : b ≠ 0x09 := by rintro rfl; exact absurd this (by decide)
    simp [h2, h3]) hn
  have h2 : w.any rxUtf = false := by
    rw [List.any_eq_false]
    intro b h
    have := hb b h
    unfold rxUtf
    simp only [UInt8.lt_iff_toNat_lt, Bool.or_eq_true, decide_eq_true_eq] at this ⊢
    simp at this ⊢
    omega
  unfold diffCode
  simp only [h1, List.headD_cons, h2, Bool.false_eq_true, if_false]
  by_cases hg : GivenCode w
  · rw [if_pos ((isDiffCode_iff w).mpr hg), capital_map w hg]
    constructor
    · intro h; cases h; exact ⟨hg, rfl⟩
    · rintro ⟨-, rfl⟩; rfl
  · rw [if_neg (fun hx => hg ((isDiffCode_iff w).mp hx))]
    constructor
    · intro h; cases h
    · intro h; exact absurd h.1 hg

/-- A character is given as itself, or by its code. -/
def GivenChar (w : Str) (c : Nat) : Prop :=
  IsScalar c ∧ (0x80 ≤ c ∧ w = enc c ∨ GivenCode w ∧ w.map capital = toUnicode c)

/-- The code of a character doesn't depend on how it is given, and every character up to plane 14 has a code. -/
theorem C200_char (w : Str) (c : Nat) (h : GivenChar w c) : diffCode w = .ok (toUnicode c) := by
  obtain ⟨hs, ⟨hc, rfl⟩ | ⟨hg, hu⟩⟩ := h
  · have hh := enc_high c (by omega)
    have hne := enc_ne_nil c
    have h1 : shWords (enc c) = [enc c] := shWords_word _ (fun b h => by
      have := hh b h
      unfold isShBlank
      have h2 : b ≠ 0x20 := by rintro rfl; exact absurd this (by decide)
      have h3 : b ≠ 0x09 := by rintro rfl; exact absurd this (by decide)
      simp [h2, h3]) hne
    have h2 : (enc c).any rxUtf = true := by
      obtain ⟨b, l, e⟩ := List.exists_cons_of_ne_nil hne
      rw [List.any_eq_true]
      refine ⟨b, by rw [e]; exact List.mem_cons_self, ?_⟩
      have := hh b (by rw [e]; exact List.mem_cons_self)
      unfold rxUtf
      simp only [UInt8.lt_iff_toNat_lt, Bool.or_eq_true, decide_eq_true_eq]
      simp
      omega
    have h3 : decode (enc c) = [c] := by
      have := decode_enc_append hs (by omega) []
      rw [List.append_nil] at this
      rw [this]; rfl
    unfold diffCode
    simp only [h1, List.headD_cons, h2, if_true, fromUtf8_decode, Option.getD_some, h3]
  · obtain ⟨g1, g2, g3⟩ := given_word w hg
    unfold diffCode
    simp only [shWords_word w g2 g1, List.headD_cons, g3, Bool.false_eq_true, if_false]
    rw [if_pos ((isDiffCode_iff w).mpr hg), capital_map w hg, hu]

theorem toUnicode_digits (c : Nat) : ∀ b ∈ toUnicode c, (0x30 ≤ b ∧ b ≤ 0x39) ∨ (0x41 ≤ b ∧ b ≤ 0x46) := by
  obtain ⟨h1, h2, _, _⟩ := toUnicode_facts c
  intro b hb
  have hx := List.all_eq_true.mp (readFrom_hex _ _ _ h1) b hb
  have hl := h2 b hb
  have : ∀ n : Fin 256, isHexChar (UInt8.ofNat n) = true → (UInt8.ofNat n).toNat < 0x61 →
      (0x30 ≤ UInt8.ofNat n ∧ UInt8.ofNat n ≤ 0x39) ∨ (0x41 ≤ UInt8.ofNat n ∧ UInt8.ofNat n ≤ 0x46) := by decide +kernel
  simpa using this ⟨b.toNat, b.toNat_lt⟩ (by simpa using hx) (by simpa using hl)

/-- Its own code is one of the texts for a character up to plane 14. -/
theorem C200_every (c : Nat) (hs : IsScalar c) (hc : c < 0xf0000) : GivenChar (toUnicode c) c := by
  have hd := toUnicode_digits c
  obtain ⟨h1, h2, _, _⟩ := toUnicode_facts c
  refine ⟨hs, Or.inr ⟨⟨fun b hb => (hd b hb).imp_right Or.inl, ?_⟩, ?_⟩⟩
  · by_cases h4 : c < 0x10000
    · exact Or.inl (toUnicode_length c h4)
    · have hl := toUnicode_length5 c (by omega) (by omega)
      refine Or.inr ⟨hl, ?_⟩
      match hu : toUnicode c with
      | [] => rw [hu] at hl; cases hl
      | b :: w =>
        rw [hu] at h1 hl
        have hw : w.length = 4 := by simpa using hl
        rw [readFrom] at h1
        cases hv : digitValue b with
        | none => rw [hv] at h1; cases h1
        | some d =>
          rw [hv] at h1
          simp only at h1
          by_cases h16 : d < 16
          · rw [if_pos h16] at h1
            have := readFrom_lt 16 (by decide) _ _ _ h1
            rw [hw] at this
            have hb : ∀ x : UInt8, (b :: w).head? = some x → x = b := by
              intro x hx; simpa using hx.symm
            refine ⟨fun hx => ?_, fun hx => ?_, fun hx => ?_⟩
            · have := hb _ hx; subst this
              have : d = 0 := by simpa using (Option.some.inj hv).symm
              subst this
              omega
            · have := hb _ hx; subst this
              have : d = 15 := by simpa using (Option.some.inj hv).symm
              subst this
              omega
            · have := hb _ hx; subst this
              have : d = 15 := by simpa using (Option.some.inj hv).symm
              subst this
              omega
          · rw [if_neg h16] at h1; cases h1
  · have : ∀ b ∈ toUnicode c, capital b = id b := by
      intro b hb
      have hx := hd b hb
      have : ∀ n : Fin 256, (0x30 ≤ UInt8.ofNat n ∧ UInt8.ofNat n ≤ 0x39) ∨ (0x41 ≤ UInt8.ofNat n ∧ UInt8.ofNat n ≤ 0x46) →
          capital (UInt8.ofNat n) = id (UInt8.ofNat n) := by decide +kernel
      simpa using this ⟨b.toNat, b.toNat_lt⟩ (by simpa using hx)
    rw [List.map_congr_left this, List.map_id]

theorem codeText_char (c : Nat) (hs : IsScalar c) :
    codeText (toUnicode c) = u8!"Code " ++ toUnicode c ++ u8!" (" ++ enc c ++ u8!")" := by
  obtain ⟨h1, _, _, _⟩ := toUnicode_facts c
  have := hexValue_read (toUnicode c) 0 (readFrom_hex _ _ _ h1)
  rw [h1] at this
  have e : hexValue (toUnicode c) = c := (Option.some.inj this).symm
  unfold codeText codeUtf8
  rw [e, toUtf8_scalars (by simpa using hs)]
  simp

/-! ## Arguments -/

/-- The arguments without `-d`: options, and one character or two, but only one with `-p`. -/
def PrintArgs (files : DiffFiles) (newFile : Str) (args : List Str) (a : DiffArgs) : Prop :=
  args.head? ≠ some (u8!"-d") ∧ ∃ (opts : List PrintOption) (codes : List Str),
    args = opts.flatMap PrintOption.words ++ codes ∧ (∀ f, PrintOption.file f ∈ opts → (files f).isSome) ∧
    (codes.head? ≠ some (u8!"-f") ∧ codes.head? ≠ some (u8!"-p")) ∧
    (codes.length = 1 ∨ codes.length = 2 ∧ PrintOption.cjk ∉ opts) ∧
    a.old = printFile opts newFile ∧ a.new = printFile opts newFile ∧ (a.cjk = true ↔ PrintOption.cjk ∈ opts) ∧ a.codes = codes

/-- The arguments with `-d`: two different files and a character. -/
def VersionArgs (files : DiffFiles) (oldFile newFile : Str) (args : List Str) (a : DiffArgs) : Prop :=
  ∃ (opts : List DiffOption) (code : Str), args = u8!"-d" :: (opts.flatMap DiffOption.words ++ [code]) ∧
    (∀ f, DiffOption.old f ∈ opts ∨ DiffOption.new f ∈ opts → (files f).isSome) ∧
    (code ≠ u8!"-o" ∧ code ≠ u8!"-n") ∧ oldOf opts oldFile ≠ newOf opts newFile ∧
    a = ⟨oldOf opts oldFile, newOf opts newFile, false, [code]⟩

/-- The arguments that are accepted, and their meaning. -/
theorem C200_arguments (files : DiffFiles) (oldFile newFile : Str) (args : List Str) (a : DiffArgs) :
    diffArgs files oldFile newFile args = .ok a ↔
      PrintArgs files newFile args a ∨ VersionArgs files oldFile newFile args a := by
  have hany : ∀ opts : List PrintOption, opts.any isCjkOption = true ↔ PrintOption.cjk ∈ opts := by
    intro opts
    rw [List.any_eq_true]
    constructor
    · rintro ⟨x, hx, h⟩
      cases x with
      | cjk => exact hx
      | file f => cases h
    · intro h; exact ⟨_, h, rfl⟩
  unfold diffArgs
  by_cases hd : args.head? = some (u8!"-d")
  · rw [if_pos hd]
    match args, hd with
    | x :: rest, hd =>
      cases hd
      rw [List.tail_cons]
      constructor
      · intro h
        cases ho : diffOptions files rest oldFile newFile with
        | error m => rw [ho] at h; cases h
        | ok r =>
          obtain ⟨opts, codes, e, k1, k2⟩ := diffOptions_inv files _ _ _ _ ho
          rw [e, diffOptions_ok files opts codes _ _ k1 k2] at h
          simp only at h
          split at h
          · cases h
          · rename_i hne
            split at h
            · cases h
            · split at h
              · cases h
              · cases h
                match codes with
                | [] => simp at *
                | [code] =>
                  exact Or.inr ⟨opts, code, by rw [e], k1, by simpa using k2, hne, rfl⟩
                | _ :: _ :: _ => simp at *
      · rintro (h | ⟨opts, code, e, k1, k2, k3, rfl⟩)
        · exact absurd rfl h.1
        · cases e
          rw [diffOptions_ok files opts [code] _ _ k1 (by simpa using k2)]
          simp [k3]
  · rw [if_neg hd]
    constructor
    · intro h
      cases ho : printOptions files args newFile false with
      | error m => rw [ho] at h; cases h
      | ok r =>
        obtain ⟨opts, codes, e, k1, k2⟩ := printOptions_inv files _ _ _ _ ho
        rw [e, printOptions_ok files opts codes _ _ k1 k2] at h
        simp only [Bool.false_or, hany] at h
        refine Or.inl ⟨hd, opts, codes, e, k1, k2, ?_⟩
        split at h
        · cases h
        · rename_i h1
          split at h
          · cases h
          · split at h
            · cases h
            · cases h
              refine ⟨?_, rfl, rfl, hany opts, rfl⟩
              by_cases hc : PrintOption.cjk ∈ opts
              · exact Or.inl (by have : ¬ codes.length > 1 := fun hx => h1 ⟨by rw [Bool.false_or]; exact (hany opts).mpr hc, hx⟩; omega)
              · by_cases hl : codes.length = 1
                · exact Or.inl hl
                · exact Or.inr ⟨by omega, hc⟩
    · rintro (⟨-, opts, codes, e, k1, k2, k3, k4, k5, k6, k7⟩ | ⟨opts, code, rfl, _⟩)
      · rw [e, printOptions_ok files opts codes _ _ k1 k2]
        simp only [Bool.false_or, hany]
        rw [if_neg (by rintro ⟨h1, h2⟩; rw [Bool.false_or] at h1; rcases k3 with k | ⟨-, k⟩; omega; exact k ((hany opts).mp h1)), if_neg (by omega), if_neg (by omega)]
        obtain ⟨a1, a2, a3, a4⟩ := a
        simp only at k4 k5 k6 k7
        subst k4 k5 k7
        congr 2
        rw [Bool.eq_iff_iff, hany, k6]
      · exact absurd rfl hd

/-! ## Fields of a character -/

theorem not_option (w : Str) (c : Nat) (h : GivenChar w c) (o : Str) (ho : o.head? = some 0x2d) : w ≠ o := by
  rintro rfl
  match w, ho with
  | b :: w, ho =>
    cases ho
    obtain ⟨hs, ⟨hc, he⟩ | ⟨hg, -⟩⟩ := h
    · have := enc_high c (by omega) 0x2d (by rw [← he]; exact List.mem_cons_self)
      exact absurd this (by decide)
    · exact absurd (hg.1 0x2d List.mem_cons_self) (by decide)

theorem options_head (opts : List PrintOption) (codes : List Str) (h : codes.head? ≠ some (u8!"-d")) :
    (opts.flatMap PrintOption.words ++ codes).head? ≠ some (u8!"-d") := by
  cases opts with
  | nil => exact h
  | cons o opts => cases o <;> simp [PrintOption.words]

/-- A file with characters, each once. -/
def HasChars (files : DiffFiles) (file : Str) (rs : List CharRecord) : Prop :=
  ∃ ls, files file = some ls ∧ CharFile ls rs ∧ (rs.map CharRecord.cp).Nodup

theorem getXml_char {files : DiffFiles} {file : Str} {rs : List CharRecord} (h : HasChars files file rs) {r : CharRecord}
    (hr : r ∈ rs) {c : Nat} (hc : r.cp = toUnicode c) :
    getXml files file (toUnicode c) = some (r.fields.map fieldText) ∧ r.Fits := by
  obtain ⟨ls, h1, h2, h3⟩ := h
  rw [← hc]
  exact ⟨getXml_found files file ls rs r h1 h2 h3 hr, file_fits ls rs h2 r hr⟩

/-- The arguments of one character. -/
theorem one_args (files : DiffFiles) (oldFile newFile : Str) (opts : List PrintOption) (w : Str) (c : Nat)
    (hopts : ∀ f, PrintOption.file f ∈ opts → (files f).isSome) (hw : GivenChar w c) (cjk : Bool)
    (hc : cjk = true ↔ PrintOption.cjk ∈ opts) :
    diffArgs files oldFile newFile (opts.flatMap PrintOption.words ++ [w]) =
      .ok ⟨printFile opts newFile, printFile opts newFile, cjk, [w]⟩ := by
  rw [C200_arguments]
  exact Or.inl ⟨options_head opts [w] (by simpa using not_option w c hw _ rfl), opts, [w], rfl, hopts,
    ⟨by simpa using not_option w c hw _ rfl, by simpa using not_option w c hw _ rfl⟩, Or.inl rfl, rfl, rfl, hc, rfl⟩

/-- One character without `-p`: all fields in their order, each with name and value. -/
theorem C200_fields (files : DiffFiles) (oldFile newFile : Str) (diff : List Str → List Str → List Str × List Str)
    (opts : List PrintOption) (w : Str) (c : Nat) (rs : List CharRecord) (r : CharRecord)
    (hopts : ∀ f, PrintOption.file f ∈ opts → (files f).isSome) (hp : PrintOption.cjk ∉ opts)
    (hf : HasChars files (printFile opts newFile) rs) (hq : 0x22 ∉ printFile opts newFile) (hr : r ∈ rs)
    (hc : r.cp = toUnicode c) (hw : GivenChar w c) :
    ucdDiff files oldFile newFile diff (opts.flatMap PrintOption.words ++ [w]) =
      .shown (charHeading (toUnicode c) (enc c) (printFile opts newFile) ++
        r.fields.flatMap fun p => shownField p ++ u8!"\n") 0 := by
  obtain ⟨hx, hfit⟩ := getXml_char hf hr hc
  unfold ucdDiff
  rw [one_args files oldFile newFile opts w c hopts hw false (by simpa using hp)]
  simp only [List.headD_cons, C200_char w c hw, hx, if_true, List.tail_cons]
  congr 1
  unfold printXml
  rw [if_neg (by simp), codeText_char c hw.1, echoLines_flatMap _ (by simpa using hfit.some)]
  have e : withoutQuotes (u8!" from '" ++ printFile opts newFile ++ u8!"'\n" ++ (r.fields.map fieldText).flatMap (· ++ u8!"\n")) =
      u8!" from '" ++ printFile opts newFile ++ u8!"'\n" ++ r.fields.flatMap fun p => shownField p ++ u8!"\n" := by
    rw [withoutQuotes_plain _ _ (by simpa using hq) (by rw [List.getLast?_append]; simp),
      withoutQuotes_fields r.fields (fun p hp => ⟨(hfit.name p hp).1, (hfit.name p hp).2.2⟩)
        fun p hp => ⟨(hfit.value p hp).1, (hfit.value p hp).2.2.2⟩]
  rw [e]
  simp [charHeading]

/-- One character with `-p`: five general fields, and the fields for CJK that are not empty. -/
theorem C200_cjk (files : DiffFiles) (oldFile newFile : Str) (diff : List Str → List Str → List Str × List Str)
    (opts : List PrintOption) (w : Str) (c : Nat) (rs : List CharRecord) (r : CharRecord)
    (hopts : ∀ f, PrintOption.file f ∈ opts → (files f).isSome) (hp : PrintOption.cjk ∈ opts)
    (hf : HasChars files (printFile opts newFile) rs) (hr : r ∈ rs)
    (hc : r.cp = toUnicode c) (hw : GivenChar w c) :
    ucdDiff files oldFile newFile diff (opts.flatMap PrintOption.words ++ [w]) =
      .shown (u8!"Code " ++ toUnicode c ++ u8!" (" ++ enc c ++ u8!")" ++
        ([u8!"age", u8!"blk", u8!"sc", u8!"Ideo", u8!"Radical"].flatMap (generalField r.fields)) ++ u8!"\n" ++
        (r.fields.filter fun p => isCjkField p && p.2 != []).flatMap fun p => shownField p ++ u8!"\n") 0 := by
  obtain ⟨hx, hfit⟩ := getXml_char hf hr hc
  unfold ucdDiff
  rw [one_args files oldFile newFile opts w c hopts hw true (by simpa using hp)]
  simp only [List.headD_cons, C200_char w c hw, hx, if_true, List.tail_cons]
  congr 1
  unfold printXml generalFields
  rw [if_pos (by simp), codeText_char c hw.1]
  have h1 : ∀ p ∈ r.fields, 0x22 ∉ p.1 ∧ 0x3d ∉ p.1 := fun p hp => ⟨(hfit.name p hp).1, (hfit.name p hp).2.2⟩
  have h2 : ∀ p ∈ r.fields, 0x22 ∉ p.2 ∧ p.2.getLast? ≠ some 0x3d := fun p hp => ⟨(hfit.value p hp).1, (hfit.value p hp).2.2.2⟩
  have e : ((r.fields.map fieldText).filter fun l =>
      (l.take 1 == u8!"k" && (l.drop 1).head?.any fun b => 0x41 ≤ b && b ≤ 0x5a) && !hasText (u8!"\"\"") l) =
      (r.fields.filter fun p => isCjkField p && p.2 != []).map fieldText := by
    rw [List.filter_map]
    congr 1
    apply List.filter_congr
    intro p hp
    simp only [Function.comp]
    rw [cjk_line, hasText_quotes p (h1 p hp).1 (h2 p hp).1]
    rfl
  rw [e]
  have g := fun n hn s => general_text n hn r.fields hfit.different h1 h2 s
  simp only [List.append_assoc] at g
  simp only [List.flatMap_cons, List.flatMap_nil, List.append_nil, List.append_assoc]
  rw [g (u8!"age") (by decide), g (u8!"blk") (by decide), g (u8!"sc") (by decide), g (u8!"Ideo") (by decide),
    g (u8!"Radical") (by decide), withoutQuotes_nl,
    withoutQuotes_fields _ (fun p hp => h1 p (List.mem_filter.mp hp).1) fun p hp => h2 p (List.mem_filter.mp hp).1]

/-! ## Characters that are not found -/

theorem toUnicode_noQuote (c : Nat) : 0x22 ∉ toUnicode c := by
  intro h
  exact absurd (toUnicode_digits c _ h) (by decide)

/-- A message when the character isn't in the file, with and without `-d`, and when a character is given twice, in
whatever way. -/
theorem C200_messages (files : DiffFiles) (oldFile newFile : Str) (diff : List Str → List Str → List Str × List Str)
    (args : List Str) (a : DiffArgs) (ha : diffArgs files oldFile newFile args = .ok a) :
    (∀ w c ws rs, a.codes = w :: ws → GivenChar w c → HasChars files a.old rs → (∀ r ∈ rs, r.cp ≠ toUnicode c) →
      ucdDiff files oldFile newFile diff args = .usage (u8!"'" ++ toUnicode c ++ u8!"' not found in: " ++ a.old)) ∧
    (∀ w c rs rs', a.codes = [w] → GivenChar w c → a.old ≠ a.new → HasChars files a.old rs → (∃ r ∈ rs, r.cp = toUnicode c) →
      HasChars files a.new rs' → (∀ r ∈ rs', r.cp ≠ toUnicode c) →
      ucdDiff files oldFile newFile diff args = .usage (u8!"'" ++ toUnicode c ++ u8!"' not found in: " ++ a.new)) ∧
    (∀ w w' c rs, a.codes = [w, w'] → GivenChar w c → GivenChar w' c → a.old = a.new → HasChars files a.old rs →
      (∃ r ∈ rs, r.cp = toUnicode c) → ucdDiff files oldFile newFile diff args = .usage (u8!"code points are the same")) ∧
    (∀ w w' c c' rs, a.codes = [w, w'] → GivenChar w c → GivenChar w' c' → c ≠ c' → a.old = a.new → HasChars files a.old rs →
      (∃ r ∈ rs, r.cp = toUnicode c) → (∀ r ∈ rs, r.cp ≠ toUnicode c') →
      ucdDiff files oldFile newFile diff args = .usage (u8!"'" ++ toUnicode c' ++ u8!"' not found in: " ++ a.new)) := by
  have miss : ∀ file c rs, HasChars files file rs → (∀ r ∈ rs, r.cp ≠ toUnicode c) → getXml files file (toUnicode c) = none := by
    rintro file c rs ⟨ls, h1, h2, -⟩ h
    exact getXml_missing files file _ ls rs (toUnicode_noQuote c) h1 h2 h
  refine ⟨?_, ?_, ?_, ?_⟩
  · intro w c ws rs hc hw hf hr
    unfold ucdDiff
    simp only [ha, hc, List.headD_cons, C200_char w c hw, miss _ c rs hf hr]
    rfl
  · rintro w c rs rs' hc hw hne hf ⟨r, hr, hrc⟩ hf' hr'
    unfold ucdDiff
    simp only [ha, hc, List.headD_cons, C200_char w c hw, (getXml_char hf hr hrc).1, hne, if_false, miss _ c rs' hf' hr']
    rfl
  · rintro w w' c rs hc hw hw' he hf ⟨r, hr, hrc⟩
    have hx := (getXml_char hf hr hrc).1
    rw [he] at hx
    unfold ucdDiff
    simp only [ha, hc, List.headD_cons, C200_char w c hw, he, hx, if_true, List.tail_cons, C200_char w' c hw']
  · rintro w w' c c' rs hc hw hw' hne he hf ⟨r, hr, hrc⟩ hr'
    have hu : toUnicode c ≠ toUnicode c' := by
      intro e
      have h1 := (toUnicode_facts c).1
      rw [e, (toUnicode_facts c').1] at h1
      exact hne (Option.some.inj h1).symm
    have hm := miss _ c' rs hf hr'
    have hx := (getXml_char hf hr hrc).1
    unfold ucdDiff
    rw [he] at hm hx
    simp only [ha, hc, List.headD_cons, C200_char w c hw, he, hx, if_true, List.tail_cons,
      C200_char w' c' hw', hu, if_false, hm]
    rfl

/-- The message for arguments that are not accepted, and for a code that isn't one. -/
theorem C200_usage (files : DiffFiles) (oldFile newFile : Str) (diff : List Str → List Str → List Str × List Str)
    (args : List Str) :
    (∀ m, diffArgs files oldFile newFile args = .error m → ucdDiff files oldFile newFile diff args = .usage m) ∧
    (∀ a w ws, diffArgs files oldFile newFile args = .ok a → a.codes = w :: ws → w ≠ [] → (∀ b ∈ w, 0x20 < b ∧ b < 0x7f) →
      ¬ GivenCode w → ucdDiff files oldFile newFile diff args = .usage (u8!"invalid code point '" ++ w ++ u8!"'")) := by
  refine ⟨fun m h => by unfold ucdDiff; rw [h], fun a w ws ha hc hn hb hg => ?_⟩
  have hd : diffCode w = .error (u8!"invalid code point '" ++ w ++ u8!"'") := by
    have h := C200_code w
    cases hx : diffCode w with
    | ok c => exact absurd ((h c hn hb).mp hx).1 hg
    | error m =>
      have h1 : shWords w = [w] := shWords_word w (fun b h => by
        have := (hb b h).1
        unfold isShBlank
        have h2 : b ≠ 0x20 := by rintro rfl; exact absurd this (by decide)
        have h3 : b ≠ 0x09 := by rintro rfl; exact absurd this (by decide)
        simp [h2, h3]) hn
      have h2 : w.any rxUtf = false := by
        rw [List.any_eq_false]
        intro b h
        have := hb b h
        unfold rxUtf
        simp only [UInt8.lt_iff_toNat_lt, Bool.or_eq_true, decide_eq_true_eq] at this ⊢
        simp at this ⊢
        omega
      rw [← hx]
      unfold diffCode
      simp only [h1, List.headD_cons, h2, Bool.false_eq_true, if_false]
      rw [if_neg (fun hx => hg ((isDiffCode_iff w).mp hx))]
  unfold ucdDiff
  simp only [ha, hc, List.headD_cons, hd]

/-! ## Differences -/

theorem showDiffs_eq (old new : Str) (c d : Nat) (hc : IsScalar c) (hd : IsScalar d) (f g : List (Str × Str)) :
    showDiffs old (toUnicode c) new (toUnicode d) ((onlyIn f g).map fieldText, (onlyIn g f).map fieldText) =
      if onlyIn f g = [] ∧ onlyIn g f = [] then .shown (u8!"no diffs found\n") 0
      else .shown (differencesText (toUnicode c) (enc c) old (onlyIn f g) ++
        differencesText (toUnicode d) (enc d) new (onlyIn g f)) (if onlyIn g f = [] then 1 else 0) := by
  have e : ∀ (c : Nat) (file : Str) (l : List (Str × Str)), IsScalar c →
      diffsText (toUnicode c) file (l.map fieldText) = differencesText (toUnicode c) (enc c) file l := by
    intro c file l hc
    unfold diffsText differencesText
    by_cases hl : l = []
    · rw [if_pos (by simpa using hl), if_pos hl]
    · rw [if_neg (by simpa using hl), if_neg hl, codeText_char c hc, echoLines_flatMap _ (by simpa using hl)]
      simp [charHeading, List.flatMap_map, List.append_assoc]
  unfold showDiffs
  by_cases h : onlyIn f g = [] ∧ onlyIn g f = []
  · rw [if_pos h, if_pos (by simpa using h)]
  · rw [if_neg h, if_neg (by simpa using h), e c old _ hc, e d new _ hd]
    simp

/-- Fields of both characters in the same order. -/
theorem diff_records (r r' : CharRecord) (h : r.Fits) (h' : r'.Fits) (ho : SameOrder r.fields r'.fields)
    (d : List Str × List Str) (hd : IsDiff (r.fields.map fieldText) (r'.fields.map fieldText) d) :
    d = ((onlyIn r.fields r'.fields).map fieldText, (onlyIn r'.fields r.fields).map fieldText) :=
  diff_fields _ _ h.different h'.different (fun p hp => (h.name p hp).2.2) (fun p hp => (h'.name p hp).2.2) ho d hd

/-- Two characters: the fields of each that the other doesn't have with the same value.  The exit status is 1 when the
second has none. -/
theorem C200_two_partial (files : DiffFiles) (oldFile newFile : Str) (diff : List Str → List Str → List Str × List Str)
    (hdiff : ∀ a b, IsDiff a b (diff a b)) (opts : List PrintOption) (w w' : Str) (c c' : Nat) (rs : List CharRecord)
    (r r' : CharRecord) (hopts : ∀ f, PrintOption.file f ∈ opts → (files f).isSome) (hp : PrintOption.cjk ∉ opts)
    (hf : HasChars files (printFile opts newFile) rs) (hr : r ∈ rs) (hr' : r' ∈ rs)
    (hc : r.cp = toUnicode c) (hc' : r'.cp = toUnicode c') (hne : c ≠ c') (hw : GivenChar w c) (hw' : GivenChar w' c')
    (ho : SameOrder r.fields r'.fields) :
    ucdDiff files oldFile newFile diff (opts.flatMap PrintOption.words ++ [w, w']) =
      if onlyIn r.fields r'.fields = [] ∧ onlyIn r'.fields r.fields = [] then .shown (u8!"no diffs found\n") 0
      else .shown (differencesText (toUnicode c) (enc c) (printFile opts newFile) (onlyIn r.fields r'.fields) ++
        differencesText (toUnicode c') (enc c') (printFile opts newFile) (onlyIn r'.fields r.fields))
          (if onlyIn r'.fields r.fields = [] then 1 else 0) := by
  obtain ⟨hx, hfit⟩ := getXml_char hf hr hc
  obtain ⟨hx', hfit'⟩ := getXml_char hf hr' hc'
  have ha : diffArgs files oldFile newFile (opts.flatMap PrintOption.words ++ [w, w']) =
      .ok ⟨printFile opts newFile, printFile opts newFile, false, [w, w']⟩ := by
    rw [C200_arguments]
    exact Or.inl ⟨options_head opts [w, w'] (by simpa using not_option w c hw _ rfl), opts, [w, w'], rfl, hopts,
      ⟨by simpa using not_option w c hw _ rfl, by simpa using not_option w c hw _ rfl⟩, Or.inr ⟨rfl, hp⟩, rfl, rfl,
      by simpa using hp, rfl⟩
  have hu : toUnicode c ≠ toUnicode c' := by
    intro e
    have h1 := (toUnicode_facts c).1
    rw [e, (toUnicode_facts c').1] at h1
    exact hne (Option.some.inj h1).symm
  unfold ucdDiff
  rw [ha]
  simp only [List.headD_cons, C200_char w c hw, hx, if_true, List.tail_cons, C200_char w' c' hw', hu, if_false, hx']
  rw [diff_records r r' hfit hfit' ho _ (hdiff _ _), showDiffs_eq _ _ _ _ hw.1 hw'.1]

/-- A character in two files, in the same way. -/
theorem C200_versions_partial (files : DiffFiles) (oldFile newFile : Str) (diff : List Str → List Str → List Str × List Str)
    (hdiff : ∀ a b, IsDiff a b (diff a b)) (opts : List DiffOption) (w : Str) (c : Nat) (rs rs' : List CharRecord)
    (r r' : CharRecord) (hopts : ∀ f, DiffOption.old f ∈ opts ∨ DiffOption.new f ∈ opts → (files f).isSome)
    (hn : oldOf opts oldFile ≠ newOf opts newFile)
    (hf : HasChars files (oldOf opts oldFile) rs) (hf' : HasChars files (newOf opts newFile) rs') (hr : r ∈ rs) (hr' : r' ∈ rs')
    (hc : r.cp = toUnicode c) (hc' : r'.cp = toUnicode c) (hw : GivenChar w c) (ho : SameOrder r.fields r'.fields) :
    ucdDiff files oldFile newFile diff (u8!"-d" :: (opts.flatMap DiffOption.words ++ [w])) =
      if onlyIn r.fields r'.fields = [] ∧ onlyIn r'.fields r.fields = [] then .shown (u8!"no diffs found\n") 0
      else .shown (differencesText (toUnicode c) (enc c) (oldOf opts oldFile) (onlyIn r.fields r'.fields) ++
        differencesText (toUnicode c) (enc c) (newOf opts newFile) (onlyIn r'.fields r.fields))
          (if onlyIn r'.fields r.fields = [] then 1 else 0) := by
  obtain ⟨hx, hfit⟩ := getXml_char hf hr hc
  obtain ⟨hx', hfit'⟩ := getXml_char hf' hr' hc'
  have ha : diffArgs files oldFile newFile (u8!"-d" :: (opts.flatMap DiffOption.words ++ [w])) =
      .ok ⟨oldOf opts oldFile, newOf opts newFile, false, [w]⟩ := by
    rw [C200_arguments]
    exact Or.inr ⟨opts, w, rfl, hopts, ⟨not_option w c hw _ rfl, not_option w c hw _ rfl⟩, hn, rfl⟩
  unfold ucdDiff
  rw [ha]
  simp only [List.headD_cons, C200_char w c hw, hx, hn, if_false, hx']
  rw [diff_records r r' hfit hfit' ho _ (hdiff _ _), showDiffs_eq _ _ _ _ hw.1 hw.1]

end KT
