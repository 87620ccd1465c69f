import Verif.Model.Bitmask
/-!
# Properties of bitmasks, of the flags for conversions and of the fields shown (C151, C152, C153)
-/
namespace KT

/-! ## C151 -/

theorem bmEnum_nat (w n : Nat) : bmEnum w (n : Int) = n % 2 ^ w := by
  unfold bmEnum
  rw [show ((2 : Int) ^ w) = ((2 ^ w : Nat) : Int) by simp, ← Int.natCast_emod, Int.toNat_natCast]

theorem bmNot_eq (w x : Nat) (h : x < 2 ^ w) : bmNot w x = 2 ^ w - 1 - x := by
  unfold bmNot bmEnum
  rw [show ((2 : Int) ^ w) = ((2 ^ w : Nat) : Int) by simp]
  have h1 : (-(x : Int) - 1) % ((2 ^ w : Nat) : Int) = ((2 ^ w - 1 - x : Nat) : Int) := by
    rw [← Int.add_emod_right]
    rw [show -(x : Int) - 1 + ((2 ^ w : Nat) : Int) = ((2 ^ w - 1 - x : Nat) : Int) by omega]
    exact Int.emod_eq_of_lt (by omega) (by omega)
  rw [h1, Int.toNat_natCast]

/-- For an enum with `w` bits the results of the operators are values of the enum, and each bit of them is that of the
operation: values are sets of flags, and the operators are intersection, union, symmetric difference and complement. -/
theorem C151_bits (w x y : Nat) (hx : x < 2 ^ w) (hy : y < 2 ^ w) :
    (bmAnd w x y < 2 ^ w ∧ bmOr w x y < 2 ^ w ∧ bmXor w x y < 2 ^ w ∧ bmNot w x < 2 ^ w) ∧
    ∀ i, (bmAnd w x y).testBit i = (x.testBit i && y.testBit i) ∧
      (bmOr w x y).testBit i = (x.testBit i || y.testBit i) ∧
      (bmXor w x y).testBit i = (x.testBit i != y.testBit i) ∧
      (bmNot w x).testBit i = (decide (i < w) && !x.testBit i) := by
  have hp : 0 < 2 ^ w := Nat.two_pow_pos w
  have ha : bmAnd w x y = x &&& y := by
    rw [bmAnd, bmEnum_nat, Nat.mod_eq_of_lt (Nat.and_lt_two_pow x hy)]
  have ho : bmOr w x y = x ||| y := by
    rw [bmOr, bmEnum_nat, Nat.mod_eq_of_lt (Nat.or_lt_two_pow hx hy)]
  have hxo : bmXor w x y = x ^^^ y := by
    rw [bmXor, bmEnum_nat, Nat.mod_eq_of_lt (Nat.xor_lt_two_pow hx hy)]
  refine ⟨⟨?_, ?_, ?_, ?_⟩, fun i => ⟨?_, ?_, ?_, ?_⟩⟩
  · rw [ha]; exact Nat.and_lt_two_pow x hy
  · rw [ho]; exact Nat.or_lt_two_pow hx hy
  · rw [hxo]; exact Nat.xor_lt_two_pow hx hy
  · rw [bmNot_eq w x hx]; omega
  · rw [ha, Nat.testBit_and]
  · rw [ho, Nat.testBit_or]
  · rw [hxo, Nat.testBit_xor]
  · rw [bmNot_eq w x hx, show 2 ^ w - 1 - x = 2 ^ w - (x + 1) by omega, Nat.testBit_two_pow_sub_succ hx]

/-- Two sets of flags with the same flags are equal, so the laws of sets hold; a value has a flag exactly if it isn't
the empty set. -/
theorem C151_sets (w x y : Nat) (hx : x < 2 ^ w) (hy : y < 2 ^ w) :
    (x = y ↔ ∀ i < w, x.testBit i = y.testBit i) ∧
    (bmHasValue x = true ↔ ∃ i < w, x.testBit i = true) ∧ bmEmpty x = !bmHasValue x := by
  have hbig : ∀ z i, z < 2 ^ w → w ≤ i → z.testBit i = false := fun z i hz hi =>
    Nat.testBit_lt_two_pow (Nat.lt_of_lt_of_le hz (Nat.pow_le_pow_right (by omega) hi))
  refine ⟨⟨fun h => by simp [h], fun h => Nat.eq_of_testBit_eq fun i => ?_⟩, ?_, rfl⟩
  · by_cases hi : i < w
    · exact h i hi
    · rw [hbig x i hx (by omega), hbig y i hy (by omega)]
  · simp only [bmHasValue, bne_iff_ne, ne_eq]
    constructor
    · intro h
      obtain ⟨i, hi⟩ := Nat.exists_testBit_of_ne_zero h
      refine ⟨i, ?_, hi⟩
      apply Classical.byContradiction
      intro hw
      rw [hbig x i hx (by omega)] at hi
      cases hi
    · rintro ⟨i, -, hi⟩ h
      rw [h] at hi
      simp at hi

/-- A flag is set with `|`, cleared with `& ~` and inverted with `^`; all other flags stay. -/
theorem C151_flag (w x k : Nat) (hx : x < 2 ^ w) (hk : k < w) :
    (∀ i, (bmOr w x (2 ^ k)).testBit i = if i = k then true else x.testBit i) ∧
    (∀ i, (bmAnd w x (bmNot w (2 ^ k))).testBit i = if i = k then false else x.testBit i) ∧
    (∀ i, (bmXor w x (2 ^ k)).testBit i = if i = k then !x.testBit i else x.testBit i) ∧
    (bmHasValue (bmAnd w x (2 ^ k)) = x.testBit k) := by
  have hk2 : 2 ^ k < 2 ^ w := Nat.pow_lt_pow_right (by omega) hk
  have h1 := C151_bits w x (2 ^ k) hx hk2
  have h2 := C151_bits w (2 ^ k) (2 ^ k) hk2 hk2
  have h3 := C151_bits w x (bmNot w (2 ^ k)) hx h2.1.2.2.2
  have hp : ∀ i, (2 ^ k).testBit i = decide (k = i) := fun i => Nat.testBit_two_pow
  have hbig : ∀ i, w ≤ i → x.testBit i = false := fun i hi =>
    Nat.testBit_lt_two_pow (Nat.lt_of_lt_of_le hx (Nat.pow_le_pow_right (by omega) hi))
  refine ⟨fun i => ?_, fun i => ?_, fun i => ?_, ?_⟩
  · rw [(h1.2 i).2.1, hp]
    by_cases hi : i = k
    · simp [hi]
    · simp [hi, Ne.symm hi]
  · rw [(h3.2 i).1, (h2.2 i).2.2.2, hp]
    by_cases hi : i = k
    · simp [hi]
    · simp only [if_neg hi, decide_eq_false (Ne.symm hi), Bool.not_false, Bool.and_true]
      by_cases hw : i < w
      · simp [hw]
      · simp [hbig i (by omega)]
  · rw [(h1.2 i).2.2.1, hp]
    by_cases hi : i = k
    · simp [hi]
    · simp [hi, Ne.symm hi]
  · have h4 := (C151_sets w (bmAnd w x (2 ^ k)) 0 h1.1.1 (Nat.two_pow_pos w)).2.1
    cases hxk : x.testBit k with
    | true => exact h4.2 ⟨k, hk, by rw [(h1.2 k).1, hp, hxk]; simp⟩
    | false =>
      cases hv : bmHasValue (bmAnd w x (2 ^ k)) with
      | false => rfl
      | true =>
        obtain ⟨i, -, hi⟩ := h4.1 hv
        rw [(h1.2 i).1, hp] at hi
        by_cases hik : k = i
        · subst hik; simp [hxk] at hi
        · simp [hik] at hi

-- tests/utils/BitmaskTest.cpp, an 8-bit enum with One = 1, Two = 2, Four = 4, Eight = 8 and All = 15
example : bmAnd 8 15 2 = 2 ∧ bmAnd 8 1 2 = 0 ∧ bmOr 8 2 4 = 6 ∧ bmXor 8 15 8 = 7 ∧ bmXor 8 4 4 = 0 ∧
    bmNot 8 4 = 4 ^^^ 255 ∧ bmAnd 8 (bmOr 8 2 4) (bmNot 8 2) = 4 ∧
    bmAnd 8 (bmOr 8 (bmAnd 8 15 2) 4) 2 = 2 ∧ bmXor 8 (bmXor 8 (bmXor 8 15 2) 4) 8 = 1 ∧
    bmHasValue 1 = true ∧ bmHasValue (bmXor 8 2 2) = false ∧ bmEmpty 1 = false ∧ bmEmpty (bmXor 8 2 2) = true := by
  decide +kernel

/-! ## C152 -/

/-- The 16 sets of flags are those of the model of conversions, and setting a flag by its letter is setting its bit. -/
theorem C152_flags :
    (∀ f : ConvertFlags, ∃ n < 16, flagsOfBits n = f ∧ ∀ m < 16, flagsOfBits m = f → m = n) ∧
    (∀ n < 16, flagsOfBits (setFlagBits n flagHepburn) = { flagsOfBits n with hepburn := true } ∧
      flagsOfBits (setFlagBits n flagKunrei) = { flagsOfBits n with kunrei := true } ∧
      flagsOfBits (setFlagBits n flagNoProlongMark) = { flagsOfBits n with noProlongMark := true } ∧
      flagsOfBits (setFlagBits n flagRemoveSpaces) = { flagsOfBits n with removeSpaces := true }) ∧
    flagsOfBits 0 = .none := by
  refine ⟨?_, by decide +kernel, by decide +kernel⟩
  rintro ⟨a, b, c, d⟩
  have : ∀ a b c d : Bool, ∃ n < 16, flagsOfBits n = ⟨a, b, c, d⟩ ∧ ∀ m < 16, flagsOfBits m = ⟨a, b, c, d⟩ → m = n := by
    decide +kernel
  exact this a b c d

/-- The names of the flags that are set, separated by `|` in the order of their bits, or `None`. -/
theorem C152_names (n : Nat) (h : n < 16) :
    flagString n =
      let names := (if n.testBit 0 then [u8!"Hepburn"] else []) ++ (if n.testBit 1 then [u8!"Kunrei"] else []) ++
        (if n.testBit 2 then [u8!"NoProlongMark"] else []) ++ (if n.testBit 3 then [u8!"RemoveSpaces"] else [])
      if names = [] then u8!"None" else (names.intersperse (u8!"|")).flatten := by
  revert n
  decide +kernel

theorem flagString_inj : ∀ n < 16, ∀ m < 16, flagString n = flagString m → n = m := by decide +kernel

theorem charName_cancel (t t' : CharType) (a b : Str) (h : t.toString ++ a = t'.toString ++ b) : t = t' ∧ a = b := by
  cases t <;> cases t' <;> simp [CharType.toString] at h <;> simp [h]

theorem sourceName_cancel (s s' : Option CharType) (a b : Str)
    (h : (match s with | some s => s.toString | none => u8!"any") ++ a =
      (match s' with | some s => s.toString | none => u8!"any") ++ b) : s = s' ∧ a = b := by
  cases s with
  | none =>
    cases s' with
    | none => exact ⟨rfl, List.append_cancel_left h⟩
    | some t => cases t <;> simp [CharType.toString] at h
  | some t =>
    cases s' with
    | none => cases t <;> simp [CharType.toString] at h
    | some t' =>
      obtain ⟨h1, h2⟩ := charName_cancel t t' a b h
      exact ⟨by rw [h1], h2⟩

/-- What is shown tells the options: different settings give different texts. -/
theorem C152_options (s s' : Option CharType) (t t' : CharType) (n n' : Nat) (h : n < 16) (h' : n' < 16)
    (he : optionsText s t n = optionsText s' t' n') : s = s' ∧ t = t' ∧ n = n' := by
  have hl : optionsLine s t n = optionsLine s' t' n' := List.append_cancel_right he
  unfold optionsLine at hl
  simp only [List.append_assoc] at hl
  obtain ⟨h1, hl⟩ := sourceName_cancel _ _ _ _ (List.append_cancel_left hl)
  obtain ⟨h2, hl⟩ := charName_cancel _ _ _ _ (List.append_cancel_left hl)
  exact ⟨h1, h2, flagString_inj n h n' h' (List.append_cancel_left hl)⟩

example : optionsText none .hiragana 0 = u8!">>> current options: source=any, target=Hiragana, flags=None\n>>> enter string (c=clear flags, f=set flag, q=quit, h=help, -k|-h|-r|-K|-H|-R):\n" := by
  decide +kernel

/-! ## C153 -/

/-- The field that is the same for all kanji of the list (or tells their place in it) isn't shown: all fields but that
one are. -/
theorem C153_fields :
    fieldsOfBits infoAll = {} ∧
    excludedField 0x66 = some infoFreq ∧ fieldsOfBits (shownFields infoFreq) = { freq := false } ∧
    excludedField 0x67 = some infoGrade ∧ fieldsOfBits (shownFields infoGrade) = { grade := false } ∧
    excludedField 0x6b = some infoKyu ∧ fieldsOfBits (shownFields infoKyu) = { kyu := false } ∧
    excludedField 0x6c = some infoLevel ∧ fieldsOfBits (shownFields infoLevel) = { level := false } := by
  decide +kernel

/-- Leaving out a field that isn't shown anyway would show it: the operator inverts. -/
theorem C153_inverts (n k : Nat) (hn : n < 2 ^ 16) (hk : k < 16) :
    bmXor 16 (bmXor 16 n (2 ^ k)) (2 ^ k) = n := by
  have h1 := C151_flag 16 n k hn hk
  have hk2 : 2 ^ k < 2 ^ 16 := Nat.pow_lt_pow_right (by omega) hk
  have hlt := (C151_bits 16 n (2 ^ k) hn hk2).1.2.2.1
  have h2 := C151_flag 16 _ k hlt hk
  refine Nat.eq_of_testBit_eq fun i => ?_
  rw [h2.2.2.1 i, h1.2.2.1 i]
  by_cases hi : i = k <;> simp [hi]

/-- The legend explains the levels, kyus and grades exactly if they are shown. -/
theorem C153_legend (quizType : UInt8) (f : Nat) (h : excludedField quizType = some f) :
    printLegend (fieldsOfBits (shownFields f)) =
      u8!">>> Legend:\nFields:" ++
      (if quizType = 0x6c then [] else u8!" N[1-5]=JLPT Level") ++
      (if quizType = 0x6b then [] else (if quizType = 0x6c then [] else u8!",") ++ u8!" K[1-10]=Kentei Kyu") ++
      (if quizType = 0x67 then [] else u8!", G[1-6]=Grade (S=Secondary School)") ++
      u8!"\nSuffix: .=常用 '=JLPT \"=Freq ^=人名用 ~=LinkJ %=LinkO +=Extra @=検定 #=1級 *=Ucd\n" := by
  unfold excludedField at h
  split at h
  · next hq => cases h; subst hq; decide +kernel
  · split at h
    · next hq => cases h; subst hq; decide +kernel
    · split at h
      · next hq => cases h; subst hq; decide +kernel
      · split at h
        · next hq => cases h; subst hq; decide +kernel
        · cases h

end KT
