import Verif.Model.Basic
/-!
# What a list quiz asks
-/
namespace Spec
open KT

/-- The question asked below the choices: `last` and `first` tell if it is the last or first question. -/
def listPrompt (quizMode toReading shown first last : Bool) (count : Nat) : Str :=
  (if quizMode then u8!"  Select correct " ++ (if toReading then u8!"reading" else u8!"kanji") else u8!"  Select") ++
  u8!" (" ++ (if quizMode || first then [] else u8!",=prev, ") ++
  u8!"-=" ++ (if shown then u8!"hide" else u8!"show") ++ u8!" meanings, .=" ++
  (if last then u8!"finish" else if quizMode then u8!"skip" else u8!"next") ++ u8!", /=quit" ++
  (if quizMode then u8!", 1" ++ (if count = 1 then [] else u8!"-" ++ [UInt8.ofNat (48 + count)]) else []) ++ u8!"): "

/-- The characters that are accepted. -/
def listKeys (quizMode first : Bool) (count : Nat) : List UInt8 :=
  (if quizMode || first then [] else u8!",") ++ u8!"-./" ++
  (if quizMode then (List.range count).map fun i => UInt8.ofNat (49 + i) else [])

end Spec
