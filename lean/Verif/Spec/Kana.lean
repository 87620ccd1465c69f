import Verif.Spec.Utf8
/-!
# Specification of kana text: characters with their marks, voiced letters
-/
namespace Spec

/-- Variation selectors U+FE00 to U+FE0F. -/
def IsSelector (c : Char) : Prop := 0xfe00 ≤ c.toNat ∧ c.toNat ≤ 0xfe0f
/-- The combining voiced (U+3099) and semi-voiced (U+309A) marks. -/
def IsKanaMark (c : Char) : Prop := c.toNat = 0x3099 ∨ c.toNat = 0x309a

instance : DecidablePred IsSelector := fun c => by unfold IsSelector; infer_instance
instance : DecidablePred IsKanaMark := fun c => by unfold IsKanaMark; infer_instance

/-- Hiragana letters of the k, s and t rows: か ... ち (every other code), つ, て, と. -/
def kstRow : List Nat :=
  [0x304b, 0x304d, 0x304f, 0x3051, 0x3053, 0x3055, 0x3057, 0x3059, 0x305b, 0x305d, 0x305f, 0x3061,
   0x3064, 0x3066, 0x3068]
/-- Hiragana letters of the h row: は, ひ, ふ, へ, ほ. -/
def hRow : List Nat := [0x306f, 0x3072, 0x3075, 0x3078, 0x307b]

/-- The small Hiragana letters: ぁ ぃ ぅ ぇ ぉ っ ゃ ゅ ょ ゎ ゕ ゖ. -/
def smallRow : List Nat :=
  [0x3041, 0x3043, 0x3045, 0x3047, 0x3049, 0x3063, 0x3083, 0x3085, 0x3087, 0x308e, 0x3095, 0x3096]

/-- Voiced form of a Hiragana letter (in Unicode the next code, and U+3094 for う). -/
def voicedHiragana (n : Nat) : Option Nat :=
  if n ∈ kstRow ∨ n ∈ hRow then some (n + 1) else if n = 0x3046 then some 0x3094 else none
/-- Semi-voiced form of a Hiragana letter. -/
def semiVoicedHiragana (n : Nat) : Option Nat := if n ∈ hRow then some (n + 2) else none

/-- Katakana letters are 0x60 above the corresponding Hiragana. -/
def kanaForm (f : Nat → Option Nat) (n : Nat) : Option Nat :=
  match f n with
  | some m => some m
  | none => if 0x60 ≤ n then (f (n - 0x60)).map (· + 0x60) else none

/-- Composition of a kana letter with U+3099 or U+309A. -/
def compose (n mark : Nat) : Option Nat :=
  if mark = 0x3099 then kanaForm voicedHiragana n
  else if mark = 0x309a then kanaForm semiVoicedHiragana n
  else none

/-- A byte string read from left to right: Ascii characters, well-formed multi-byte characters, and
bytes that don't start a well-formed character. -/
inductive Token where
  | ascii (b : UInt8)
  | char (c : Char)
  | bad (b : UInt8)
  deriving DecidableEq

/-- `Tokens s ts`: `ts` is the reading of `s` up to its end or its first NUL. -/
inductive Tokens : List UInt8 → List Token → Prop where
  | nil : Tokens [] []
  | nul (r) : Tokens (0 :: r) []
  | ascii {b r ts} : b ≠ 0 → b.toNat < 128 → Tokens r ts → Tokens (b :: r) (.ascii b :: ts)
  | char {c : Char} {r ts} : 128 ≤ c.toNat → Tokens r ts →
      Tokens (String.utf8EncodeChar c ++ r) (.char c :: ts)
  | bad {b r ts} : (∀ c : Char, ¬ StartsWith (b :: r) c) → Tokens r ts →
      Tokens (b :: r) (.bad b :: ts)

/-- What iterating over a string has to deliver: one piece per character.  A variation selector
stays with the multi-byte character before it, a combining mark is merged into the kana before it (or
dropped, like marks and selectors with nothing to modify and malformed bytes). -/
def pieces (onlyMB : Bool) : List Token → List (List UInt8)
  | [] => []
  | .ascii b :: ts => if onlyMB then pieces onlyMB ts else [b] :: pieces onlyMB ts
  | .bad _ :: ts => pieces onlyMB ts
  | .char c :: ts =>
    if IsSelector c ∨ IsKanaMark c then pieces onlyMB ts
    else match ts with
      | .char v :: ts' =>
        if IsSelector v then
          (String.utf8EncodeChar c ++ String.utf8EncodeChar v) :: pieces onlyMB ts'
        else if IsKanaMark v then
          (match compose c.toNat v.toNat with
            | some d => String.utf8EncodeChar (Char.ofNat d)
            | none => String.utf8EncodeChar c) :: pieces onlyMB ts'
        else String.utf8EncodeChar c :: pieces onlyMB (.char v :: ts')
      | ts => String.utf8EncodeChar c :: pieces onlyMB ts

/-- Number of pieces that end in a variation selector, of combining marks that were merged, and of
everything that was dropped. -/
structure Counts where
  errors : Nat := 0
  variants : Nat := 0
  marks : Nat := 0
  deriving DecidableEq

def counts : List Token → Counts
  | [] => {}
  | .ascii _ :: ts => counts ts
  | .bad _ :: ts => let r := counts ts; { r with errors := r.errors + 1 }
  | .char c :: ts =>
    if IsSelector c ∨ IsKanaMark c then let r := counts ts; { r with errors := r.errors + 1 }
    else match ts with
      | .char v :: ts' =>
        if IsSelector v then let r := counts ts'; { r with variants := r.variants + 1 }
        else if IsKanaMark v then
          let r := counts ts'
          match compose c.toNat v.toNat with
            | some _ => { r with marks := r.marks + 1 }
            | none => { r with errors := r.errors + 1 }
        else counts (.char v :: ts')
      | ts => counts ts

/-- Text as the iteration shows it: combining marks merged into the kana before them, marks and
selectors that don't follow a multi-byte character dropped. -/
def merge : List Char → List Char
  | [] => []
  | c :: cs =>
    if c.toNat < 128 then c :: merge cs
    else if IsSelector c ∨ IsKanaMark c then merge cs
    else match cs with
      | v :: cs' =>
        if IsSelector v then c :: v :: merge cs'
        else if IsKanaMark v then
          (match compose c.toNat v.toNat with
            | some d => Char.ofNat d
            | none => c) :: merge cs'
        else c :: merge (v :: cs')
      | [] => [c]

/-- Text without combining marks in which each variation selector follows a multi-byte character
that is not a selector itself. -/
def Plain : List Char → Prop
  | [] => True
  | c :: cs =>
    ¬ IsSelector c ∧ ¬ IsKanaMark c ∧
      match cs with
      | v :: cs' => if IsSelector v ∧ 128 ≤ c.toNat then Plain cs' else Plain (v :: cs')
      | [] => True

/-- Characters that an iteration (over multi-byte characters only) shows. -/
def shown (onlyMB : Bool) (c : Char) : Bool := !onlyMB || decide (128 ≤ c.toNat)

/-- Tokens of well-formed text without NUL. -/
def textTokens (cs : List Char) : List Token :=
  cs.map fun c => if c.toNat < 128 then .ascii (UInt8.ofNat c.toNat) else .char c

/-- Characters that count for the size of a text. -/
def counted (onlyMB : Bool) (c : Char) : Bool :=
  !decide (IsSelector c) && !decide (IsKanaMark c) && shown onlyMB c

end Spec
