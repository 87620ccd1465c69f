import Verif.Spec.KanjiDetails
import Verif.Props.QuizDetails
import Verif.Props.QuizLauncher
import Verif.Props.MorohashiId
import Verif.Props.Utf8
import Verif.Props.Kanji
import Verif.Lemmas.Utf8CharText
import Verif.Lemmas.ConverterText
/-!
# C164: the program that shows kanji

Model: `Verif/Model/KanjiDetails.lean`, specification: `Verif/Spec/KanjiDetails.lean`.
-/
namespace KT
open Spec

/-! ## Numbers at the beginning of a text -/

/-- Digits at the beginning. -/
def digitRun (s : Str) : Str := s.takeWhile isDigitChar

theorem isDigit_nat (b : UInt8) : (0x30 ≤ b.toNat && b.toNat ≤ 0x39) = isDigitChar b := by
  unfold isDigitChar
  simp only [UInt8.le_iff_toNat_le]
  rfl

theorem digitRun_all (s : Str) : (digitRun s).all isDigitChar = true := List.all_takeWhile

theorem firstNumber_eq (s : Str) : firstNumber s = decimalValue (digitRun s) := by
  have e : (s.takeWhile fun b => 0x30 ≤ b.toNat && b.toNat ≤ 0x39) = digitRun s := by
    unfold digitRun
    simp only [isDigit_nat]
  unfold firstNumber
  rw [e]
  by_cases h : digitRun s = []
  · rw [h]; rfl
  · rw [readNumber_digits _ (digitRun_all s) h]; rfl

theorem digitRun_of_all {s : Str} (h : s.all isDigitChar = true) : digitRun s = s := by
  unfold digitRun
  induction s with
  | nil => rfl
  | cons b s ih =>
    simp only [List.all_cons, Bool.and_eq_true] at h
    rw [List.takeWhile_cons, h.1, if_pos rfl, ih h.2]

theorem readNumber_none_iff {s : Str} (hs : s ≠ []) : readNumber 10 s = none ↔ s.all isDigitChar = false := by
  constructor
  · intro h
    cases ha : s.all isDigitChar with
    | false => rfl
    | true => rw [readNumber_digits s ha hs] at h; cases h
  · exact readNumber_not s

/-! ## Messages about Morohashi IDs -/

theorem validateLoopWhy_eq : ∀ (ds : Str) (leading : Bool) (r : Nat), r ≤ 65535 → (leading = true → r = 0) →
    validateLoopWhy ds leading r =
      if (digitRun ds).foldl (fun a b => a * 10 + (b.toNat - 0x30)) r > 65535 then .error (u8!"exceeds max")
      else if ds.all isDigitChar = false then .error (u8!"is non-numeric")
      else .ok (ds.foldl (fun a b => a * 10 + (b.toNat - 0x30)) r) := by
  intro ds
  induction ds with
  | nil => intro l r hr _; simp [validateLoopWhy, digitRun, Nat.not_lt.mpr hr]
  | cons c ds ih =>
    intro l r hr hl
    unfold validateLoopWhy
    split
    · rename_i h
      obtain ⟨h1, rfl⟩ := h
      have hr0 := hl h1
      subst hr0
      rw [ih true 0 (by omega) (fun _ => rfl)]
      rfl
    · by_cases hd : c < 0x30 ∨ c > 0x39
      · rw [if_pos hd]
        have : isDigitChar c = false := by
          cases h : isDigitChar c with
          | false => rfl
          | true => exact absurd hd ((isDigitChar_iff c).mp h)
        have e : digitRun (c :: ds) = [] := by unfold digitRun; rw [List.takeWhile_cons, this]; rfl
        rw [e, if_neg (by simpa using hr)]
        simp [this]
      · rw [if_neg hd]
        have hdc : isDigitChar c = true := (isDigitChar_iff c).mpr hd
        have e : digitRun (c :: ds) = c :: digitRun ds := by unfold digitRun; rw [List.takeWhile_cons, hdc]; rfl
        have hx : c.toNat - 0x30 ≤ 9 := by
          simp only [UInt8.lt_iff_toNat_lt, gt_iff_lt, not_or, Nat.not_lt] at hd
          have : (0x39 : UInt8).toNat = 0x39 := rfl
          omega
        have hge := foldl_ge (digitRun ds) (r * 10 + (c.toNat - 0x30))
        rw [e]
        simp only [List.all_cons, hdc, Bool.true_and, List.foldl_cons]
        by_cases h1 : r > 65535 / 10
        · rw [if_pos h1, if_pos (by omega)]
        · rw [if_neg h1]
          rw [show r * 10 % 65536 = r * 10 by omega]
          by_cases h2 : r * 10 > 65535 - (c.toNat - 0x30)
          · rw [if_pos h2, if_pos (by omega)]
          · rw [if_neg h2]
            rw [show (r * 10 + (c.toNat - 0x30)) % 65536 = r * 10 + (c.toNat - 0x30) by omega]
            exact ih false _ (by omega) (by simp)

/-- With prefix `p` and suffix `q` around the number. -/
theorem validateWhy_eq (p ds q : Str) : morohashiValidateWhy (p ++ ds ++ q) p.length q.length =
    if ds = [] then (if p = [] ∧ q = [] then .ok 0 else .error (u8!"is invalid"))
    else if firstNumber ds > 65535 then .error (u8!"exceeds max")
    else if readNumber 10 ds = none then .error (u8!"is non-numeric")
    else if ¬ (p = [] ∧ q = []) ∧ firstNumber ds = 0 then .error (u8!"can't be zero")
    else .ok (firstNumber ds) := by
  unfold morohashiValidateWhy
  have e : ((p ++ ds ++ q).take ((p ++ ds ++ q).length - q.length)).drop p.length = ds := by
    rw [show (p ++ ds ++ q).length - q.length = (p ++ ds).length by simp only [List.length_append]; omega,
      List.take_left, List.drop_left]
  rw [e, validateLoopWhy_eq ds true 0 (by omega) (fun _ => rfl)]
  simp only [List.append_eq_nil_iff, List.length_append, List.length_eq_zero_iff]
  by_cases hd : ds = []
  · subst hd
    rw [if_pos rfl]
    by_cases hpq : p = [] ∧ q = []
    · rw [if_pos hpq, if_pos ⟨⟨⟨hpq.1, rfl⟩, hpq.2⟩, hpq.1, hpq.2⟩]
    · rw [if_neg hpq, if_neg (by rintro ⟨_, h⟩; exact hpq h), if_pos (by simp only [List.length_nil]; omega)]
  · have hl : ds.length ≠ 0 := by simpa using hd
    rw [if_neg (by rintro ⟨⟨⟨_, h⟩, _⟩, _⟩; exact hd h), if_neg (by omega), if_neg hd]
    have e1 : (digitRun ds).foldl (fun a b => a * 10 + (b.toNat - 0x30)) 0 = firstNumber ds := (firstNumber_eq ds).symm
    rw [e1]
    by_cases h1 : firstNumber ds > 65535
    · rw [if_pos h1, if_pos h1]
    · rw [if_neg h1, if_neg h1]
      by_cases h2 : ds.all isDigitChar = false
      · rw [if_pos h2, if_pos ((readNumber_none_iff hd).mpr h2)]
      · rw [if_neg h2, if_neg (fun h => h2 ((readNumber_none_iff hd).mp h))]
        have h2' : ds.all isDigitChar = true := by simpa using h2
        have e2 : ds.foldl (fun a b => a * 10 + (b.toNat - 0x30)) 0 = firstNumber ds := by
          rw [firstNumber_eq, digitRun_of_all h2']; rfl
        rw [e2]
        have : (p.length ≠ 0 ∨ q.length ≠ 0) ↔ ¬ (p = [] ∧ q = []) := by
          simp only [ne_eq, List.length_eq_zero_iff]
          constructor
          · rintro (h | h) ⟨h1, h2⟩
            · exact h h1
            · exact h h2
          · intro h
            by_cases hp : p = []
            · exact .inr fun hq => h ⟨hp, hq⟩
            · exact .inl hp
        simp only [this]

theorem suffix_mark {s q : Str} (h : q <:+ s) : ∃ ds, s = ds ++ q ∧ s.take (s.length - q.length) = ds := by
  obtain ⟨ds, rfl⟩ := h
  exact ⟨ds, rfl, by rw [List.length_append, Nat.add_sub_cancel, List.take_left]⟩

theorem endsWith_suffix (s q : Str) : endsWith s q = true ↔ q <:+ s := by
  unfold endsWith; exact List.isSuffixOf_iff_suffix

/-- The result for every Morohashi ID. -/
theorem morohashiWhy_eq (s : Str) : morohashiWhy s =
    match idProblem s with
    | some why => .error (u8!"Morohashi ID '" ++ s ++ u8!"' " ++ why)
    | none => .ok ⟨firstNumber (unmarked s).2, (unmarked s).1⟩ := by
  -- from the parts to the whole
  have key : ∀ (p ds q : Str) (kind : IdType), s = p ++ ds ++ q → unmarked s = (kind, ds) →
      (kind = .plain ↔ p = [] ∧ q = []) →
      (match morohashiValidateWhy s p.length q.length with
        | .ok id => Except.ok ⟨id, kind⟩
        | .error e => .error (u8!"Morohashi ID '" ++ s ++ u8!"' " ++ e)) =
      match idProblem s with
      | some why => Except.error (u8!"Morohashi ID '" ++ s ++ u8!"' " ++ why)
      | none => Except.ok (⟨firstNumber (unmarked s).2, (unmarked s).1⟩ : MorohashiId) := by
    intro p ds q kind hs hu hk
    have e := validateWhy_eq p ds q
    rw [← hs] at e
    rw [e]
    unfold idProblem
    rw [hu]
    simp only
    have hk2 : (kind ≠ .plain) ↔ ¬ (p = [] ∧ q = []) := not_congr hk
    by_cases h0 : ds = []
    · rw [if_pos h0, if_pos h0]
      by_cases h1 : kind = .plain
      · rw [if_pos h1, if_pos (hk.mp h1), h0]; rfl
      · rw [if_neg h1, if_neg (fun h => h1 (hk.mpr h))]
    · rw [if_neg h0, if_neg h0]
      by_cases h1 : firstNumber ds > 65535
      · rw [if_pos h1, if_pos h1]
      · rw [if_neg h1, if_neg h1]
        by_cases h2 : readNumber 10 ds = none
        · rw [if_pos h2, if_pos h2]
        · rw [if_neg h2, if_neg h2]
          by_cases h3 : kind ≠ .plain ∧ firstNumber ds = 0
          · rw [if_pos h3, if_pos ⟨hk2.mp h3.1, h3.2⟩]
          · rw [if_neg h3, if_neg (fun h => h3 ⟨hk2.mpr h.1, h.2⟩)]
  unfold morohashiWhy MorohashiId.getIdType
  have d2 : isDoublePrime s = true ↔ ((u8!"PP") <:+ s ∨ (u8!"''") <:+ s) := by
    unfold isDoublePrime; rw [Bool.or_eq_true, endsWith_suffix, endsWith_suffix]
  have d1 : isPrime s = true ↔ ((u8!"P") <:+ s ∨ (u8!"'") <:+ s) := by
    unfold isPrime; rw [Bool.or_eq_true, endsWith_suffix, endsWith_suffix]
  by_cases h2 : isDoublePrime s = true
  · simp only [h2, if_true]
    have hm := d2.mp h2
    have : ∃ ds q : Str, s = ds ++ q ∧ q.length = 2 ∧ s.take (s.length - 2) = ds := by
      rcases hm with h | h
      · obtain ⟨ds, h1, h3⟩ := suffix_mark h
        exact ⟨ds, _, h1, rfl, h3⟩
      · obtain ⟨ds, h1, h3⟩ := suffix_mark h
        exact ⟨ds, _, h1, rfl, h3⟩
    obtain ⟨ds, q, h1, h3, h4⟩ := this
    have := key [] ds q .doublePrime h1 (by unfold unmarked; rw [if_pos hm, h4])
      ⟨fun h => (by cases h), fun h => (by rw [h.2] at h3; cases h3)⟩
    rw [h3] at this
    exact this
  · have h2' := fun h => h2 (d2.mpr h)
    simp only [h2]
    by_cases hp : isPrime s = true
    · simp only [hp, if_true]
      have hm := d1.mp hp
      have : ∃ ds q : Str, s = ds ++ q ∧ q.length = 1 ∧ s.dropLast = ds := by
        rcases hm with h | h
        · obtain ⟨ds, h1, h3⟩ := suffix_mark h
          exact ⟨ds, _, h1, rfl, by rw [List.dropLast_eq_take]; exact h3⟩
        · obtain ⟨ds, h1, h3⟩ := suffix_mark h
          exact ⟨ds, _, h1, rfl, by rw [List.dropLast_eq_take]; exact h3⟩
      obtain ⟨ds, q, h1, h3, h4⟩ := this
      have := key [] ds q .prime h1 (by unfold unmarked; rw [if_neg h2', if_pos hm, h4])
        ⟨fun h => (by cases h), fun h => (by rw [h.2] at h3; cases h3)⟩
      rw [h3] at this
      exact this
    · have hp' := fun h => hp (d1.mpr h)
      simp only [hp]
      by_cases hh : isSupplemental s = true
      · simp only [hh, if_true]
        have : ∃ r, s = 0x48 :: r := by
          unfold isSupplemental at hh
          cases s with
          | nil => cases hh
          | cons b r => exact ⟨r, by simpa using hh⟩
        obtain ⟨r, hr⟩ := this
        have := key [0x48] r [] .supplemental (by rw [hr]; simp)
          (by unfold unmarked; rw [if_neg h2', if_neg hp', hr]; rfl) ⟨fun h => (by cases h), fun h => (by cases h.1)⟩
        exact this
      · simp only [hh]
        have hu : unmarked s = (.plain, s) := by
          unfold unmarked
          rw [if_neg h2', if_neg hp']
          cases s with
          | nil => rfl
          | cons b r =>
            by_cases hb : b = 0x48
            · exact absurd (by rw [hb]; rfl) hh
            · split
              · rename_i h; cases h; exact absurd rfl hb
              · rfl
        exact key [] s [] .plain (by simp) hu ⟨fun _ => ⟨rfl, rfl⟩, fun _ => rfl⟩

/-- The messages belong to the errors of the constructor. -/
theorem C164_morohashi (s : Str) :
    (idProblem s = none → MorohashiId.parse s = .ok ⟨firstNumber (unmarked s).2, (unmarked s).1⟩) ∧
    (∀ why, idProblem s = some why → MorohashiId.parse s = .throw .domain) := by
  have loop : ∀ (ds : Str) (b : Bool) (r : Nat), validateLoop ds b r =
      match validateLoopWhy ds b r with | .ok n => .ok n | .error _ => .throw .domain := by
    intro ds
    induction ds with
    | nil => intro b r; rfl
    | cons c ds ih =>
      intro b r
      unfold validateLoop validateLoopWhy
      split
      · exact ih _ _
      · split
        · rfl
        · simp only
          split
          · rfl
          · split
            · rfl
            · exact ih _ _
  have val : ∀ p q : Nat, morohashiValidate s p q =
      match morohashiValidateWhy s p q with | .ok n => .ok n | .error _ => .throw .domain := by
    intro p q
    unfold morohashiValidate morohashiValidateWhy
    split
    · rfl
    · split
      · rfl
      · rw [loop]
        cases validateLoopWhy ((s.take (s.length - q)).drop p) true 0 with
        | error e => rfl
        | ok n =>
          show (if _ then _ else _) = _
          split <;> rename_i h <;> simp only [h] <;> rfl
  have e : MorohashiId.parse s = match morohashiWhy s with | .ok n => .ok n | .error _ => .throw .domain := by
    unfold MorohashiId.parse MorohashiId.getId morohashiWhy
    simp only [val]
    have : ∀ x : Except Str Nat,
        ((match x with | .ok n => Res.ok n | .error _ => .throw .domain) >>= fun id =>
          Res.ok (⟨id, MorohashiId.getIdType s⟩ : MorohashiId)) =
        match (match x with
          | .ok id => Except.ok (⟨id, MorohashiId.getIdType s⟩ : MorohashiId)
          | .error e => .error (u8!"Morohashi ID '" ++ s ++ u8!"' " ++ e)) with
        | .ok n => .ok n | .error _ => .throw .domain := by
      intro x; cases x <;> rfl
    have pick : ∀ (a b c : Bool) (w x y z : Except Str Nat),
        (if a = true then (match w with | .ok n => Res.ok n | .error _ => .throw .domain)
          else if b = true then (match x with | .ok n => Res.ok n | .error _ => .throw .domain)
          else if c = true then (match y with | .ok n => Res.ok n | .error _ => .throw .domain)
          else (match z with | .ok n => Res.ok n | .error _ => .throw .domain)) =
        match (if a = true then w else if b = true then x else if c = true then y else z) with
        | .ok n => Res.ok n | .error _ => .throw .domain := by
      intro a b c w x y z
      cases a <;> cases b <;> cases c <;> rfl
    exact (congrArg (· >>= fun id => Res.ok (⟨id, MorohashiId.getIdType s⟩ : MorohashiId)) (pick _ _ _ _ _ _ _)).trans
      (this _)
  rw [e, morohashiWhy_eq]
  constructor
  · intro h; rw [h]
  · intro why h; rw [h]

/-! ## Arguments -/

theorem readNumber_letter (c : UInt8) (id : Str) (h : isDigitChar c = false) : readNumber 10 (c :: id) = none :=
  readNumber_not _ (by simp [h])

theorem argument_number {arg : Str} {n : Nat} (h : readNumber 10 arg = some n) : argument arg =
    if n ≤ 65535 then .ok (.frequency n) else .error (u8!"invalid frequency '" ++ arg ++ u8!"'") := by
  unfold argument
  rw [h]

theorem argument_m (id : Str) : argument (0x6d :: id) =
    match idProblem id with
    | some why => .error (u8!"Morohashi ID '" ++ id ++ u8!"' " ++ why)
    | none => .ok (.morohashi ⟨firstNumber (unmarked id).2, (unmarked id).1⟩) := by
  unfold argument
  rw [readNumber_letter _ _ (by decide)]
  rfl

theorem argument_n (id : Str) : argument (0x6e :: id) =
    match readNumber 10 id with
    | some n => if n ≤ 65535 then .ok (.nelson n) else .error (u8!"invalid Nelson ID '" ++ id ++ u8!"'")
    | none => .error (u8!"Nelson ID '" ++ id ++ u8!"' is non-numeric") := by
  unfold argument
  rw [readNumber_letter _ _ (by decide)]
  rfl

theorem argument_u (id : Str) : argument (0x75 :: id) =
    match readNumber 16 id with
    | some n =>
      if id.length = 4 ∨ (id.length = 5 ∧ (id.head? = some 0x31 ∨ id.head? = some 0x32)) then .ok (.unicode n)
      else .error (u8!"Unicode value '" ++ id ++ u8!"' is invalid")
    | none => .error (u8!"Unicode value '" ++ id ++ u8!"' is invalid") := by
  unfold argument
  rw [readNumber_letter _ _ (by decide)]
  rfl

theorem argument_other (c : UInt8) (r : Str) (h : (c :: r).all isDigitChar = false) (h1 : c ≠ 0x6d) (h2 : c ≠ 0x6e)
    (h3 : c ≠ 0x75) : argument (c :: r) =
    if isKanji (c :: r) then .ok (.name (c :: r))
    else .error (u8!"unrecognized 'kanji' value '" ++ (c :: r) ++ u8!"', use -h for help") := by
  unfold argument
  rw [readNumber_not _ h]
  simp only
  split
  · rename_i e; cases e
  · rename_i e; cases e; exact absurd rfl h1
  · rename_i e; cases e; exact absurd rfl h2
  · rename_i e; cases e; exact absurd rfl h3
  · rfl

/-- Codes that are accepted. -/
theorem hex_iff (id : Str) :
    (¬ (id.length < 4 ∨ id.length > 5 ∨ (id.length = 5 ∧ id.head? ≠ some 0x31 ∧ id.head? ≠ some 0x32) ∨
        id.all isHexChar = false)) ↔
    readNumber 16 id = some (hexValue id) ∧
      (id.length = 4 ∨ (id.length = 5 ∧ (id.head? = some 0x31 ∨ id.head? = some 0x32))) := by
  constructor
  · intro h
    simp only [not_or, not_and, Bool.not_eq_false, Nat.not_lt] at h
    obtain ⟨h1, h2, h3, h4⟩ := h
    refine ⟨?_, ?_⟩
    · have hne : id.isEmpty = false := by
        cases id with
        | nil => simp at h1
        | cons => rfl
      rw [readNumber, hne, if_neg (by simp), hexValue_read id 0 h4]; rfl
    · by_cases h5 : id.length = 5
      · refine .inr ⟨h5, ?_⟩
        by_cases h6 : id.head? = some 0x31
        · exact .inl h6
        · exact .inr (Classical.byContradiction fun h7 => h3 h5 h6 h7)
      · left; omega
  · rintro ⟨h1, h2⟩ h
    have h4 : id.all isHexChar = true := by
      rw [readNumber] at h1
      split at h1
      · cases h1
      · exact readFrom_hex id 0 _ h1
    rcases h with h | h | h | h
    · omega
    · omega
    · rcases h2 with h2 | ⟨_, h2⟩
      · omega
      · rcases h2 with h2 | h2
        · exact h.2.1 h2
        · exact h.2.2 h2
    · rw [h4] at h; cases h

theorem readNumber_hex {id : Str} {n : Nat} (h : readNumber 16 id = some n) : n = hexValue id := by
  have h4 : id.all isHexChar = true := by
    rw [readNumber] at h
    split at h
    · cases h
    · exact readFrom_hex id 0 _ h
  rw [readNumber] at h
  split at h
  · cases h
  · rw [hexValue_read id 0 h4] at h
    cases h
    rfl

/-- `argument` for codes. -/
theorem argument_u' (id : Str) : argument (0x75 :: id) =
    if id.length < 4 ∨ id.length > 5 ∨ (id.length = 5 ∧ id.head? ≠ some 0x31 ∧ id.head? ≠ some 0x32) ∨
        id.all isHexChar = false then .error (u8!"Unicode value '" ++ id ++ u8!"' is invalid")
    else .ok (.unicode (hexValue id)) := by
  rw [argument_u]
  by_cases h : id.length < 4 ∨ id.length > 5 ∨ (id.length = 5 ∧ id.head? ≠ some 0x31 ∧ id.head? ≠ some 0x32) ∨
        id.all isHexChar = false
  · rw [if_pos h]
    cases hr : readNumber 16 id with
    | none => rfl
    | some n =>
      simp only
      rw [if_neg]
      intro hl
      have hn := readNumber_hex hr
      subst hn
      exact (hex_iff id).mpr ⟨hr, hl⟩ h
  · rw [if_neg h]
    obtain ⟨h1, h2⟩ := (hex_iff id).mp h
    rw [h1]
    simp only
    rw [if_pos h2]

theorem getIdWhy_eq (msg s : Str) (h : s.all isDigitChar = true) (hs : s ≠ []) :
    readNumber 10 s = some (decimalValue s) ∧
    getIdWhy msg s = (if decimalValue s ≤ 65535 then .ok (decimalValue s)
      else .error (u8!"invalid " ++ msg ++ u8!" '" ++ s ++ u8!"'")) := by
  refine ⟨readNumber_digits s h hs, ?_⟩
  unfold getIdWhy
  by_cases hv : decimalValue s ≤ 65535
  · rw [if_pos hv, if_neg (by rintro (h | h); exact hs h; omega)]
  · rw [if_neg hv, if_pos (.inr (by omega))]

theorem quizGetId_eq (s : Str) (hs : s ≠ []) :
    quizGetId s = if decimalValue s ≤ 65535 then .ok (decimalValue s) else .throw .usage := by
  unfold quizGetId
  rw [if_neg hs]
  by_cases hv : decimalValue s ≤ 65535
  · rw [if_pos hv, if_neg (by omega)]
  · rw [if_neg hv, if_pos (by omega)]

/-- An argument that `argument` understands is looked up, any other is an error. -/
theorem C164_argument (arg : Str) :
    (∀ q, argument arg = .ok q → processKanjiArg arg = .ok q) ∧
    (∀ message, argument arg = .error message → ∃ e, processKanjiArg arg = .throw e) := by
  unfold processKanjiArg
  by_cases h1 : arg.all isDigitChar = true
  · rw [if_pos h1]
    by_cases h0 : arg = []
    · subst h0
      exact ⟨fun q h => (by cases h), fun m _ => ⟨.usage, rfl⟩⟩
    · rw [quizGetId_eq arg h0, argument_number (readNumber_digits arg h1 h0)]
      by_cases hv : decimalValue arg ≤ 65535
      · rw [if_pos hv, if_pos hv]
        exact ⟨fun q h => (by cases h; rfl), fun m h => (by cases h)⟩
      · rw [if_neg hv, if_neg hv]
        exact ⟨fun q h => (by cases h), fun m _ => ⟨.usage, rfl⟩⟩
  · rw [if_neg h1]
    have h1' : arg.all isDigitChar = false := by simpa using h1
    obtain ⟨c, r, rfl⟩ : ∃ (c : UInt8) (r : Str), arg = c :: r := by
      cases arg with
      | nil => cases h1'
      | cons c r => exact ⟨c, r, rfl⟩
    · have h := h1'
      simp only [List.head?_cons, List.tail_cons, Option.some.injEq]
      by_cases hm : c = 0x6d
      · subst hm
        rw [if_pos rfl, argument_m]
        obtain ⟨e1, e2⟩ := C164_morohashi r
        cases hp : idProblem r with
        | none => rw [e1 hp]; exact ⟨fun q h => (by cases h; rfl), fun m h => (by cases h)⟩
        | some why => rw [e2 why hp]; exact ⟨fun q h => (by cases h), fun m _ => ⟨.domain, rfl⟩⟩
      rw [if_neg hm]
      by_cases hn : c = 0x6e
      · subst hn
        rw [if_pos rfl, argument_n]
        by_cases hr : r = [] ∨ r.all isDigitChar = false
        · simp only [hr, if_true]
          have : readNumber 10 r = none := by
            rcases hr with rfl | hr
            · rfl
            · exact readNumber_not r hr
          rw [this]
          exact ⟨fun q h => (by cases h), fun m _ => ⟨.usage, rfl⟩⟩
        · simp only [hr, if_false]
          have h0 : r ≠ [] := fun h => hr (.inl h)
          have h2 : r.all isDigitChar = true := by
            cases h : r.all isDigitChar with
            | true => rfl
            | false => exact absurd (.inr h) hr
          rw [quizGetId_eq r h0, readNumber_digits r h2 h0]
          by_cases hv : decimalValue r ≤ 65535
          · simp only [if_pos hv]
            exact ⟨fun q h => (by cases h; rfl), fun m h => (by cases h)⟩
          · simp only [if_neg hv]
            exact ⟨fun q h => (by cases h), fun m _ => ⟨.usage, rfl⟩⟩
      rw [if_neg hn]
      by_cases hu : c = 0x75
      · subst hu
        rw [if_pos rfl, argument_u']
        by_cases hx : r.length < 4 ∨ r.length > 5 ∨ (r.length = 5 ∧ r.head? ≠ some 0x31 ∧ r.head? ≠ some 0x32) ∨
            r.all isHexChar = false
        · simp only [hx, if_true]
          exact ⟨fun q h => (by cases h), fun m _ => ⟨.usage, rfl⟩⟩
        · simp only [hx, if_false]
          exact ⟨fun q h => (by cases h; rfl), fun m h => (by cases h)⟩
      rw [if_neg hu, argument_other c r h hm hn hu]
      split
      · exact ⟨fun q h => (by cases h; rfl), fun m h => (by cases h)⟩
      · exact ⟨fun q h => (by cases h), fun m _ => ⟨.usage, rfl⟩⟩

/-! ## What is shown -/

theorem legend_eq : printLegend {} = legendText := by decide +kernel

theorem printOne_eq (found : Str → Res Str) (card : Str → Str) (name : Str) (h : found name = .ok (card name)) :
    (printOneDetail found name true).shown = .text (onePage card name) := by
  unfold printOneDetail
  rw [h, legend_eq]
  rfl

theorem printMatches_eq (found : Str → Res Str) (card : Str → Str) (names : List Str)
    (h : ∀ n ∈ names, found n = .ok (card n)) (kind id : Str) :
    (printMatches found names kind id).shown = .text (idPage card kind id names) := by
  obtain ⟨h0, h1, h2⟩ := C109_matches found card names h kind id
  match names, h0, h1, h2, h with
  | [], h0, _, _, _ => rw [h0 rfl]; rfl
  | [n], _, h1, _, h => rw [h1 n rfl]; exact printOne_eq found card n (h n (by simp))
  | a :: b :: r, _, _, h2, _ => rw [h2 (by simp), legend_eq]; rfl

theorem toUtf8_character (c : Nat) : toUtf8 [c] = .ok (character c) := by
  unfold character
  by_cases h : IsScalar c
  · rw [if_pos h]
    have := C03_standard_encoding [Char.ofNat c]
    simpa [Converter.ofNat_toNat h, utf8Encode] using this
  · rw [if_neg h, C03_replacement c h]
    simp [utf8Encode]

/-- The whole program for any argument: what is shown is given by `kanjiPage`.  `card` is what is known about a kanji,
see `C164_card` and `C164_cards`; `ranked` are the kanji by frequency, see C44. -/
theorem C164_shown (sort : List KanjiRec → List KanjiRec) (d : DetailStore) (card : Str → Str)
    (hc : ∀ name, detailText sort d name = .ok (card name)) (ranked : Nat → Option KanjiRec)
    (hr : ∀ n ≤ 65535, d.store.frequencies.find n = .ok (ranked n)) (arg : Str) :
    showKanji sort d arg = kanjiPage card ranked d.store arg := by
  have one : ∀ name, (printOneDetail (detailText sort d) name true).shown = .text (onePage card name) := fun name =>
    printOne_eq _ card name (hc name)
  have all : ∀ names kind id, (printMatches (detailText sort d) names kind id).shown = .text (idPage card kind id names) :=
    fun names kind id => printMatches_eq _ card names (fun n _ => hc n) kind id
  unfold showKanji kanjiPage
  simp only [one, all]
  by_cases h1 : arg.all isDigitChar = true
  · rw [if_pos h1]
    by_cases h0 : arg = []
    · subst h0; rfl
    · obtain ⟨e1, e2⟩ := getIdWhy_eq (u8!"frequency") arg h1 h0
      rw [e2, argument_number e1]
      by_cases hv : decimalValue arg ≤ 65535
      · simp only [if_pos hv]
        rw [hr _ hv]
        cases ranked (decimalValue arg) <;> rfl
      · simp only [if_neg hv]
        rfl
  · rw [if_neg h1]
    have h1' : arg.all isDigitChar = false := by simpa using h1
    obtain ⟨c, r, rfl⟩ : ∃ (c : UInt8) (r : Str), arg = c :: r := by
      cases arg with
      | nil => cases h1'
      | cons c r => exact ⟨c, r, rfl⟩
    · have h := h1'
      simp only [List.head?_cons, List.tail_cons, Option.some.injEq]
      by_cases hm : c = 0x6d
      · subst hm
        rw [if_pos rfl, argument_m, morohashiWhy_eq]
        cases idProblem r <;> rfl
      rw [if_neg hm]
      by_cases hn : c = 0x6e
      · subst hn
        rw [if_pos rfl, argument_n]
        by_cases hr : r = [] ∨ r.all isDigitChar = false
        · simp only [hr, if_true]
          have : readNumber 10 r = none := by
            rcases hr with rfl | hr
            · rfl
            · exact readNumber_not r hr
          rw [this]
        · simp only [hr, if_false]
          have h0 : r ≠ [] := fun h => hr (.inl h)
          have h2 : r.all isDigitChar = true := by
            cases h : r.all isDigitChar with
            | true => rfl
            | false => exact absurd (.inr h) hr
          obtain ⟨e1, e2⟩ := getIdWhy_eq (u8!"Nelson ID") r h2 h0
          rw [e2, e1]
          by_cases hv : decimalValue r ≤ 65535
          · simp only [if_pos hv]
          · simp only [if_neg hv]
            rfl
      rw [if_neg hn]
      by_cases hu : c = 0x75
      · subst hu
        rw [if_pos rfl, argument_u']
        by_cases hx : r.length < 4 ∨ r.length > 5 ∨ (r.length = 5 ∧ r.head? ≠ some 0x31 ∧ r.head? ≠ some 0x32) ∨
            r.all isHexChar = false
        · simp only [hx, if_true]
        · simp only [hx, if_false, toUtf8_character]
      rw [if_neg hu, argument_other c r h hm hn hu]
      split <;> rfl

/-! ## What is known about a kanji -/

/-- The sources of a kanji, see C100. -/
def sourcesPart (u : UcdRec) : Str :=
  if u.sourcesText = [] then [] else u8!", Sources " ++ u.sourcesText ++ if u.jSource = [] then [] else u8!" (" ++ u.jSource ++ u8!")"

/-- Lines of text. -/
def linesText (l : List Str) : Str := (l.map (· ++ u8!"\n")).flatten

/-- What is shown about a name: a heading with the codes, and for loaded kanji lines with the description (C73), the
meaning if there is one, the reading, and then similar kanji (C109_similar), IDs (C109_ids), categories
(C109_categories) and Jukugo (C108). -/
theorem C164_card (sort : List KanjiRec → List KanjiRec) (d : DetailStore) (arg : Str) :
    (d.ucd.find arg = .ok none →
      detailText sort d arg = .ok (arg ++ u8!" [" ++ codesText (decode arg) ++ u8!"] --- Not found in 'ucd.txt'\n")) ∧
    ∀ u, d.ucd.find arg = .ok (some u) →
      (d.store.findByName arg = none → detailText sort d arg =
        .ok (arg ++ u8!" [" ++ codesText (decode arg) ++ u8!"], Blk " ++ u.block ++ u8!", Ver " ++ u.version ++
          sourcesPart u ++ u8!" --- Kanji not loaded'\n")) ∧
      ∀ k, d.store.findByName arg = some k → (k.kanji.newName = none ∨ k.kanji.oldNames = []) →
        (∀ p, k.kanji.pinyin = some p → p ≠ []) → (∀ n ∈ k.kanji.oldNames, n ≠ []) →
        ∃ similar, similarLine sort d.detail.patterns k = .ok similar ∧
        detailText sort d arg = .ok (linesText (
          [arg ++ u8!" [" ++ codesText (decode arg) ++ u8!"], Blk " ++ u.block ++ u8!", Ver " ++ u.version ++
            sourcesPart u ++ u8!", " ++ kanjiTypeText k.kanji.type ++
              (match d.extra k with | some i => u8!" (" ++ i ++ u8!")" | none => []),
           joinText (u8!", ") (infoParts k.kanji {})] ++
          (d.detail.meaning k).toList.map (u8!"    Meaning: " ++ ·) ++
          [u8!"    Reading: " ++ d.detail.reading k]) ++
          similar ++ idLines k ++ categoryLine d.detail.meanings k ++
          printJukugo k.kanji.grade (d.detail.jukugo.find k.kanji.name)) := by
  have hcode : toUnicodeStr arg .square = u8!"[" ++ codesText (decode arg) ++ u8!"]" := by
    show u8!"[" ++ toUnicodeCodes (decode arg) ++ u8!"]" = _
    rw [toUnicodeCodes_eq]
  have hucd : ∀ u : UcdRec, printUcd u = u8!", Blk " ++ u.block ++ u8!", Ver " ++ u.version ++ sourcesPart u := by
    intro u
    unfold printUcd sourcesPart
    simp only [List.isEmpty_iff]
  refine ⟨?_, ?_⟩
  · intro h
    unfold detailText
    rw [h, hcode]
    simp [Res.bind]
  · intro u hu
    refine ⟨?_, ?_⟩
    · intro hk
      unfold detailText
      rw [hu, hk, hcode]
      simp [Res.bind, hucd]
    · intro k hk hx hp ho
      obtain ⟨similar, h1, h2⟩ := C109_review sort d.detail k
      refine ⟨similar, h1, ?_⟩
      unfold detailText loadedText
      rw [hu, hk, hcode]
      simp only [Res.bind, C73_info k.kanji {} hx hp ho, h2]
      rw [hucd]
      unfold printExtraTypeInfo printMeaning linesText
      cases d.detail.meaning k <;> simp <;> rfl

/-- The data has what the loading guarantees: a kanji has at most one of new and old names (C48), and no empty names. -/
def DetailStore.Sound (d : DetailStore) : Prop :=
  ∀ s k, d.store.findByName s = some k → (k.kanji.newName = none ∨ k.kanji.oldNames = []) ∧
    (∀ p, k.kanji.pinyin = some p → p ≠ []) ∧ ∀ n ∈ k.kanji.oldNames, n ≠ []

/-- There is something to show for every name. -/
theorem C164_cards (sort : List KanjiRec → List KanjiRec) (d : DetailStore) (hd : d.Sound) :
    ∃ card : Str → Str, ∀ name, detailText sort d name = .ok (card name) := by
  have key : ∀ name, ∃ t, detailText sort d name = .ok t := by
    intro name
    obtain ⟨h1, h2⟩ := C164_card sort d name
    have : ∃ u, d.ucd.find name = .ok u := by
      unfold UcdData.find
      obtain ⟨b, hb⟩ := isCharWith_total name
      rw [hb]
      cases b with
      | false => exact ⟨_, rfl⟩
      | true =>
        have : noVariationSelector name = some (name.take (name.length - varSelectorSize)) := by
          unfold noVariationSelector
          rw [hb]; rfl
        simp only [Res.ofOption, Res.bind, if_true, this]
        split <;> exact ⟨_, rfl⟩
    obtain ⟨u, hu⟩ := this
    cases u with
    | none => exact ⟨_, h1 hu⟩
    | some u =>
      obtain ⟨h3, h4⟩ := h2 u hu
      cases hk : d.store.findByName name with
      | none => exact ⟨_, h3 hk⟩
      | some k =>
        obtain ⟨s1, s2, s3⟩ := hd name k hk
        obtain ⟨_, _, h⟩ := h4 k hk s1 s2 s3
        exact ⟨_, h⟩
  exact ⟨fun n => Classical.choose (key n), fun n => Classical.choose_spec (key n)⟩

/-- Every argument gives a text or an error with a message, if every frequency is found (C44). -/
theorem C164_total (sort : List KanjiRec → List KanjiRec) (d : DetailStore) (hd : d.Sound)
    (hr : ∀ n ≤ 65535, ∃ k, d.store.frequencies.find n = .ok k) (arg : Str) :
    (∃ s, showKanji sort d arg = .text s ∧ s ≠ []) ∨ ∃ m, showKanji sort d arg = .error m ∧ m ≠ [] := by
  obtain ⟨card, hc⟩ := C164_cards sort d hd
  have : ∃ ranked : Nat → Option KanjiRec, ∀ n ≤ 65535, d.store.frequencies.find n = .ok (ranked n) := by
    refine ⟨fun n => if h : n ≤ 65535 then Classical.choose (hr n h) else none, fun n h => ?_⟩
    simp only [dif_pos h]
    exact Classical.choose_spec (hr n h)
  obtain ⟨ranked, hr'⟩ := this
  rw [C164_shown sort d card hc ranked hr' arg]
  have hl : legendText ≠ [] := by decide
  have hp : ∀ n, onePage card n ≠ [] := by
    intro n h
    unfold onePage at h
    exact hl (List.append_eq_nil_iff.mp (List.append_eq_nil_iff.mp h).1).1
  have hi : ∀ k i l, idPage card k i l ≠ [] := by
    intro k i l
    match l with
    | [] => simp [idPage]
    | [n] => exact hp n
    | a :: b :: r =>
      intro h
      have h : legendText ++ _ ++ _ ++ _ ++ _ ++ _ ++ _ ++ _ ++ _ = [] := h
      simp only [List.append_eq_nil_iff] at h
      exact hl h.1.1.1.1.1.1.1.1
  have he : ∀ m, argument arg = .error m → m ≠ [] := by
    intro m h
    unfold argument at h
    (repeat' split at h) <;> cases h <;> simp
  unfold kanjiPage
  split
  · exact .inr ⟨_, rfl, he _ (by assumption)⟩
  · split
    · exact .inl ⟨_, rfl, hp _⟩
    · exact .inr ⟨_, rfl, by simp⟩
  · exact .inl ⟨_, rfl, hi _ _ _⟩
  · exact .inl ⟨_, rfl, hi _ _ _⟩
  · exact .inl ⟨_, rfl, hp _⟩
  · exact .inl ⟨_, rfl, hp _⟩

/-- Whichever way a kanji is named, the same is shown: by its name, its frequency, its code, or an ID that no other
kanji has. -/
theorem C164_same (sort : List KanjiRec → List KanjiRec) (d : DetailStore) (hd : d.Sound)
    (hr : ∀ n ≤ 65535, ∃ k, d.store.frequencies.find n = .ok k) (k : KanjiRec) (hk : isKanji k.kanji.name = true) :
    ∃ page, showKanji sort d k.kanji.name = .text page ∧
      (∀ n : Nat, n ≤ 65535 → d.store.frequencies.find n = .ok (some k) → showKanji sort d (toDec n) = .text page) ∧
      (∀ id : MorohashiId, MorohashiId.parse id.toString = .ok id → d.store.findByMorohashiId id = [k] →
        showKanji sort d (0x6d :: id.toString) = .text page) ∧
      (∀ n : UInt16, d.store.findByNelsonId n = [k] → showKanji sort d (0x6e :: toDec n.toNat) = .text page) ∧
      ∀ (code : Nat) (id : Str), readNumber 16 id = some code → id.length = 4 → character code = k.kanji.name →
        showKanji sort d (0x75 :: id) = .text page := by
  obtain ⟨card, hc⟩ := C164_cards sort d hd
  have : ∃ ranked : Nat → Option KanjiRec, ∀ n ≤ 65535, d.store.frequencies.find n = .ok (ranked n) := by
    refine ⟨fun n => if h : n ≤ 65535 then Classical.choose (hr n h) else none, fun n h => ?_⟩
    simp only [dif_pos h]
    exact Classical.choose_spec (hr n h)
  obtain ⟨ranked, hr'⟩ := this
  have hs := C164_shown sort d card hc ranked hr'
  refine ⟨onePage card k.kanji.name, ?_, ?_, ?_, ?_, ?_⟩
  · rw [hs]
    have h := (C82_forms k.kanji.name).2.2.2.2 hk
    have : argument k.kanji.name = .ok (.name k.kanji.name) := by
      cases ha : argument k.kanji.name with
      | error m =>
        obtain ⟨e, he⟩ := (C164_argument _).2 m ha
        rw [h] at he; cases he
      | ok q =>
        have := (C164_argument _).1 q ha
        rw [h] at this; cases this; rfl
    unfold kanjiPage
    rw [this]
  · intro n hn hf
    rw [hs]
    have hrn : readNumber 10 (toDec n) = some n := by
      rw [readNumber_digits _ (toDec_digits n) (toDec_ne_nil n), toDec_value]
    have e : ranked n = some k := by
      have := hr' n hn
      rw [hf] at this; exact (Option.some.inj ((Res.ok.inj this) ▸ rfl : some (some k) = some (ranked n))).symm
    unfold kanjiPage
    rw [argument_number hrn, if_pos hn]
    simp only [e]
  · intro id hid hf
    rw [hs]
    have : argument (0x6d :: id.toString) = .ok (.morohashi id) := by
      rw [argument_m]
      obtain ⟨e1, e2⟩ := C164_morohashi id.toString
      cases hp : idProblem id.toString with
      | some why => rw [e2 why hp] at hid; cases hid
      | none =>
        rw [e1 hp] at hid
        simp only [Res.ok.inj hid]
    unfold kanjiPage
    rw [this]
    simp only [hf]
    rfl
  · intro n hf
    rw [hs]
    have hrn : readNumber 10 (toDec n.toNat) = some n.toNat := by
      rw [readNumber_digits _ (toDec_digits _) (toDec_ne_nil _), toDec_value]
    have hn : n.toNat ≤ 65535 := by have := n.toNat_lt; omega
    unfold kanjiPage
    rw [argument_n, hrn]
    simp only [if_pos hn, UInt16.ofNat_toNat, hf]
    rfl
  · intro code id h4 hl hname
    rw [hs]
    unfold kanjiPage
    rw [argument_u, h4]
    simp only [if_pos (Or.inl hl)]
    rw [hname]

/-! ## Examples from the repository's tests (tests/quiz/QuizLauncherTest.cpp:138-292) -/

def detailHou : KanjiRec := ⟨⟨.jouyou, u8!"奉", none, u8!"大", 37, ⟨8, 0⟩, some (u8!"fèng"), 1624, some .s, some .n1,
  some .k3, false, [], none, [], [], none⟩, ⟨5894, .plain⟩, [212]⟩

def detailSimilar (name : Str) (type : KanjiType) (frequency : UInt16) : KanjiRec :=
  ⟨⟨type, name, none, u8!"大", 37, ⟨8, 0⟩, none, frequency, none, none, none, false, [], none, [], [], none⟩, {}, []⟩

def detailJukugo : List Jukugo :=
  [⟨u8!"ご奉仕", u8!"ごほうし", .s⟩, ⟨u8!"御奉仕", u8!"ごほうし", .s⟩, ⟨u8!"信奉", u8!"しんぽう", .s⟩,
   ⟨u8!"奉行", u8!"ぶぎょう", .s⟩, ⟨u8!"奉賀", u8!"ほうが", .s⟩, ⟨u8!"奉公", u8!"ほうこう", .s⟩,
   ⟨u8!"奉仕", u8!"ほうし", .s⟩, ⟨u8!"奉書", u8!"ほうしょ", .s⟩, ⟨u8!"奉職", u8!"ほうしょく", .s⟩,
   ⟨u8!"奉納", u8!"ほうのう", .s⟩]

def detailGroup : Group :=
  ⟨1, u8!"奉", [detailHou, detailSimilar (u8!"俸") .jouyou 0, detailSimilar (u8!"棒") .jouyou 0,
    detailSimilar (u8!"捧") .jinmei 1], .family⟩

def detailUcd : UcdRec where
  name := u8!"奉"
  sources := 127
  linkType := .none
  links := []
  strokes := ⟨8, 0⟩
  block := u8!"CJK"
  version := u8!"1.1"
  pinyin := u8!"fèng"
  radical := 37
  morohashiId := ⟨5894, .plain⟩
  nelsonIds := u8!"212"
  jSource := u8!"J0-4A74"
  meaning := []
  on := []
  kun := []

/-- One loaded kanji; its frequency is 1 here. -/
def detailSample : DetailStore where
  store := { nameMap := [(u8!"奉", detailHou)], frequencies := ⟨[[detailHou]] ++ List.replicate 9 [], 2⟩,
             morohashiMap := [(⟨5894, .plain⟩, [detailHou])],
             nelsonMap := [(212, [detailHou]), (1491, [detailHou, detailSimilar (u8!"幮") .ucd 0])] }
  ucd := { map := [(u8!"奉", detailUcd)] }
  detail := { patterns := { map := [(u8!"奉", detailGroup)] }, jukugo := { kanjiTo := [(u8!"奉", detailJukugo)] },
              reading := fun _ => u8!"ホウ、（ブ）、たてまつ-る", meaning := fun _ => some (u8!"observance") }
  extra := fun _ => some (u8!"#1833")

def detailPage : Str := u8!">>> Legend:
Fields: N[1-5]=JLPT Level, K[1-10]=Kentei Kyu, G[1-6]=Grade (S=Secondary School)
Suffix: .=常用 '=JLPT \"=Freq ^=人名用 ~=LinkJ %=LinkO +=Extra @=検定 #=1級 *=Ucd
Sources: G=China / Singapore, H=Hong Kong, J=Japan, K=Korea, T=Taiwan, V=Vietnam

奉 [5949], Blk CJK, Ver 1.1, Sources GHJKTV (J0-4A74), Jouyou (#1833)
Rad 大(37), Strokes 8, fèng, S, N1, Frq 1624, K3
    Meaning: observance
    Reading: ホウ、（ブ）、たてまつ-る
    Similar: 俸. 棒. 捧\"
  Morohashi: 5894
  Nelson ID: 212
     Jukugo: 10
ご奉仕（ごほうし）  御奉仕（ごほうし）  信奉（しんぽう）    
奉行（ぶぎょう）    奉賀（ほうが）      奉公（ほうこう）    
奉仕（ほうし）      奉書（ほうしょ）    奉職（ほうしょく）  
奉納（ほうのう）    

"

example : showKanji id detailSample (u8!"奉") = .text detailPage := by decide +kernel
example : showKanji id detailSample (u8!"1") = .text detailPage := by decide +kernel
example : showKanji id detailSample (u8!"m5894") = .text detailPage := by decide +kernel
example : showKanji id detailSample (u8!"n212") = .text detailPage := by decide +kernel
example : showKanji id detailSample (u8!"u5949") = .text detailPage := by decide +kernel

/-- The sample has what the theorems need. -/
example : detailSample.Sound := by
  intro s k h
  have hk : k = detailHou := by
    unfold KanjiStore.findByName at h
    change [(u8!"奉", detailHou)].lookup s = some k at h
    rw [List.lookup_cons] at h
    split at h
    · cases h; rfl
    · cases h
  subst hk
  exact ⟨.inl rfl, fun p hp => (by cases hp; decide), fun n hn => (by cases hn)⟩

example : showKanji id detailSample (u8!"u4336") = .text (legendText ++
    u8!"Sources: G=China / Singapore, H=Hong Kong, J=Japan, K=Korea, T=Taiwan, V=Vietnam\n\n䌶 [4336] --- Not found in 'ucd.txt'\n") := by
  decide +kernel
example : showKanji id detailSample (u8!"m99P") = .text (u8!"Found 0 matches for Morohashi ID 99P\n") := by decide +kernel
example : showKanji id detailSample (u8!"n6000") = .text (u8!"Found 0 matches for Nelson ID 6000\n") := by decide +kernel
example : showKanji id detailSample (u8!"2502") = .error (u8!"Kanji not found for frequency '2502'") := by decide +kernel
example : showKanji id detailSample (u8!"m123Q") = .error (u8!"Morohashi ID '123Q' is non-numeric") := by decide +kernel
example : showKanji id detailSample (u8!"n123B") = .error (u8!"Nelson ID '123B' is non-numeric") := by decide +kernel
example : showKanji id detailSample (u8!"uABC") = .error (u8!"Unicode value 'ABC' is invalid") := by decide +kernel
example : showKanji id detailSample (u8!"a") = .error (u8!"unrecognized 'kanji' value 'a', use -h for help") := by
  decide +kernel

/-- Messages about Morohashi IDs (tests/kanji/MorohashiIdTest.cpp). -/
example : idProblem (u8!"123P") = none ∧ idProblem (u8!"P") = some (u8!"is invalid") ∧
    idProblem (u8!"12a") = some (u8!"is non-numeric") ∧ idProblem (u8!"65536") = some (u8!"exceeds max") ∧
    idProblem (u8!"H0") = some (u8!"can't be zero") ∧ idProblem (u8!"99999x") = some (u8!"exceeds max") := by
  decide +kernel

end KT
