import Verif.Props.QuizProgram
/-!
# Runs of kanjiQuiz as examples (evaluated; kept apart from the theorems)
-/
namespace KT
open Spec

private theorem hou_sound : detailHou.Sound := ⟨.inl rfl, fun p hp => (by cases hp; decide), fun n hn => (by cases hn)⟩

/-- The lists of the sample are empty but for one. -/
private theorem sample_list (l : QuestionList) : listedKanji detailSample.store l = [] ∨ listedKanji detailSample.store l = [detailHou] := by
  rcases l with (_ | i) | (_ | g) | (_ | k) | (_ | j)
  case frequency.some =>
    rcases i with _ | i
    · exact .inr rfl
    · refine .inl ?_
      show (([[detailHou]] ++ List.replicate 9 ([] : List KanjiRec))[i + 1]?).getD [] = []
      simp only [List.cons_append, List.nil_append, List.getElem?_cons_succ, List.getElem?_replicate]
      split <;> rfl
  all_goals exact .inl rfl

/-- The sample of C164 has what the theorems need. -/
example : DataFits detailSample where
  sound l k hk := by
    rcases sample_list l with h | h <;> rw [h] at hk
    · cases hk
    · obtain rfl : k = detailHou := by simpa using hk
      exact hou_sound
  length l := by rcases sample_list l with h | h <;> rw [h] <;> simp
  groups t mt := by cases t <;> exact ⟨by decide, fun g hg => (by cases hg)⟩

private def ran (argv : List Str) (input : Str) : Option (Str × Option (Str × Nat)) :=
  match mainQuiz id detailSample ⟨u8!"stoul", u8!"stoul"⟩ false argv 9 { answers := [(0, []), (0, [])] } { rest := input } with
  | some (.ok o) => some o
  | _ => none

-- a review of the only kanji of the first frequency list
example : ran [u8!"kanjiQuiz", u8!"-r1", u8!"-f0"] (u8!"/\n") = some (u8!">>>
>>> Starting review for 1 kanji
>>>
>>> Legend:
Fields: N[1-5]=JLPT Level, K[1-10]=Kentei Kyu, G[1-6]=Grade (S=Secondary School)
Suffix: .=常用 '=JLPT \"=Freq ^=人名用 ~=LinkJ %=LinkO +=Extra @=検定 #=1級 *=Ucd

1/1:  奉  Rad 大(37), Strokes 8, fèng, S, N1, K3, Jouyou (#1833)
    Reading: ホウ、（ブ）、たてまつ-る
    Similar: 俸. 棒. 捧\"
  Morohashi: 5894
  Nelson ID: 212
     Jukugo: 10
ご奉仕（ごほうし）  御奉仕（ごほうし）  信奉（しんぽう）    
奉行（ぶぎょう）    奉賀（ほうが）      奉公（ほうこう）    
奉仕（ほうし）      奉書（ほうしょ）    奉職（ほうしょく）  
奉納（ほうのう）    

  Select (-=show meanings, .=finish, /=quit): ", some ([], 0)) := by decide +kernel

-- a question that doesn't exist
example : ran [u8!"kanjiQuiz", u8!"-t2", u8!"-f0"] (u8!"4\nk\n") =
  some (u8!"Number of choices (/=quit, 2-9) def '4': Quiz style (/=quit, k=kanji to reading, r=reading to kanji) def 'k': " ++
    u8!"\nFinal score: 0/2, skipped: 2\n", some (u8!"entry num '2' is larger than total questions: 1\n", 1)) := by
  decide +kernel

-- an option that isn't known
example : ran [u8!"kanjiQuiz", u8!"-r", u8!"b", u8!"-f1"] [] =
  some ([], some (u8!"unrecognized 'kanji' value 'b', use -h for help\n", 1)) := by decide +kernel

-- there are no meaning groups
example : ran [u8!"kanjiQuiz", u8!"-t1", u8!"-m1"] [] =
  some (u8!"\nFinal score: 0/1, skipped: 1\n", some (u8!"empty group list\n", 1)) := by decide +kernel

end KT
