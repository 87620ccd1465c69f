import Verif.Model.GroupData
import Verif.Spec.Text
import Verif.Spec.Kana
/-!
# Specification of group files
-/
namespace Spec
open KT

/-- The kind of a pattern group by the position of the wide colon in its name. -/
def PatternName : PatternType → Str → Prop
  | .peer, n => ∃ b, n = u8!"：" ++ b
  | .family, n => (∃ a b, n = a ++ u8!"：" ++ b) ∧ ¬ ∃ b, n = u8!"：" ++ b
  | .reading, n => ¬ ∃ a b, n = a ++ u8!"：" ++ b
  | .none, _ => False

/-- The kind of a group. -/
def GroupKind (t : GroupType) (p : PatternType) (n : Str) : Prop :=
  (t = .meaning ∧ p = .none) ∨ (t = .pattern ∧ PatternName p n)

/-- The names of the members: for a family the first character of the name comes first. -/
def memberNames (p : PatternType) (first members : Str) : List Str :=
  (if p = .family then [first] else []) ++ (if members = [] then [] else split 0x2c members)

/-- The group of a row: a name of multi-byte characters, a number, and 2 to 58 different kanji that are all
known. -/
structure IsGroup (find : Str → Option KanjiRec) (t : GroupType) (row : GroupRow) (g : Group) : Prop where
  name : g.name = row.name
  nonempty : row.name ≠ []
  wide : ∀ b ∈ row.name, 128 ≤ b.toNat
  number : processU64 row.number 65535 = .ok g.number
  kind : GroupKind t g.patternType row.name
  comma : row.members.getLast? ≠ some 0x2c
  members : ∃ ts, Tokens row.name ts ∧
    g.members.map some = (memberNames g.patternType ((pieces true ts).head?.getD []) row.members).map find
  atLeast : 2 ≤ g.members.length
  atMost : g.members.length ≤ 58
  distinct : (g.members.map (·.kanji.name)).Nodup

/-- The groups of the rows, in the same order. -/
def GroupsOf (find : Str → Option KanjiRec) (t : GroupType) (rows : List GroupRow) (gs : List Group) : Prop :=
  gs.length = rows.length ∧ ∀ (i : Nat) (r : GroupRow) (g : Group), rows[i]? = some r → gs[i]? = some g → IsGroup find t r g

/-- The group has a member with this name. -/
def hasMember (s : Str) (g : Group) : Bool := g.members.any fun k => k.kanji.name == s

/-- In how many groups a name is. -/
def groupCount (groups : List Group) (s : Str) : Nat := groups.countP (hasMember s)

/-- The names of all members of all groups. -/
def allMemberNames (groups : List Group) : List Str := groups.flatMap fun g => g.members.map (·.kanji.name)

/-- At most 12 examples of names that were not found, if there are any. -/
def missingExamples (all found : List Str) : Option (List Str) :=
  if all.all (fun n => found.contains n) then none
  else some ((all.filter fun n => !found.contains n).take 12)

/-- The entries of a map in the order of the keys. -/
def KeySorted {β : Type} (m : List (Str × β)) : Prop := m.Pairwise fun a b => strLt b.1 a.1 = false

/-- All members of all groups. -/
def allMembers (gs : List Group) : List KanjiRec := gs.flatMap (·.members)

/-- The names of the kanji of a type: each once, with all members of the type that are in a group. -/
structure TypeNames (t : KanjiType) (gs : List Group) (all : List Str) : Prop where
  distinct : all.Nodup
  size : all.length < 2 ^ 64
  complete : ∀ k ∈ allMembers gs, k.kanji.type = t → k.kanji.name ∈ all

end Spec
