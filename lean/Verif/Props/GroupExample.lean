import Verif.Props.GroupTranscript
/-!
# A whole group quiz as an example (evaluated; kept apart from the theorems)
-/
namespace KT
open Spec

-- an answer, showing meanings, changing the answer, the other answer and quitting
example : quizText (groupStartQuiz true .pattern .jouyou [aGroup, aGroup] 0 false 9 [([1, 0], [0, 1]), ([0, 1], [0, 1])]
    { rest := u8!"a\n-\n*\nb\na\n/\n" }) =
  some (u8!">>>\n>>> Starting quiz for 2 Pattern groups\n" ++
    u8!"\nQuestion 1/2:  [亜：ア、アク], 2 members\n" ++
    u8!"   1:  悪.                       a:  ア\n   2:  亜.                       b:  アク\n\n" ++
    u8!"  Reading for: 1 (-=show meanings, .=skip, /=quit, a-b): " ++
    u8!"    1->a\n  Reading for: 2 ('=refresh, *=edit, -=show meanings, .=skip, /=quit, b): " ++
    u8!"\nQuestion 1/2:  [亜：ア、アク], 2 members\n" ++
    u8!"   1:  悪.                    1->a:  ア : Asia\n   2:  亜.                       b:  アク : bad\n\n" ++
    u8!"    1->a\n  Reading for: 2 ('=refresh, *=edit, -=hide meanings, .=skip, /=quit, b): " ++
    u8!"    New reading for Entry: 1 (a-b) def 'a': " ++
    u8!"    1->b\n  Reading for: 2 ('=refresh, *=edit, -=hide meanings, .=skip, /=quit, a): " ++
    u8!"  Correct! (1/1)\n" ++
    u8!"\nQuestion 2/2:  [亜：ア、アク], 2 members\n" ++
    u8!"   1:  亜.                       a:  ア : Asia\n   2:  悪.                       b:  アク : bad\n\n" ++
    u8!"  Reading for: 1 (-=hide meanings, .=finish, /=quit, a-b): " ++
    u8!"\nFinal score: 1/1 - Perfect!\n", { rest := [] }) := by decide +kernel

-- QuizReview: the line of 華 in a review of the pattern groups
example : groupRow false .pattern [] false 0
    ⟨u8!"華", u8!"カ、（ケ）、はな", none, ⟨true, true, false, 0⟩, ⟨u8!"華.", some (u8!"huá"), some 24⟩⟩
    ⟨u8!"華", u8!"カ、（ケ）、はな", none, ⟨true, true, false, 0⟩, ⟨u8!"華.", some (u8!"huá"), some 24⟩⟩ =
  u8!"   1:  華.  (huá)     m:24        :  カ、（ケ）、はな\n" := by decide +kernel

end KT
