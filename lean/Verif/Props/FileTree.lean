import Verif.Model.QuizFiles
import Verif.Props.ListFileText
import Verif.Props.DataDir
/-!
# Paths in a tree of files

What `dir / name` names is the entry of what `dir` names, also if the text of `dir` ends with a slash.
-/
namespace KT

/-- The entry of a directory with a name. -/
def FsNode.entry : FsNode → Str → Option FsNode
  | .file _, _ => none
  | .dir es, n => es.lookup n

/-- A name of an entry. -/
def PlainName (n : Str) : Prop := n ≠ [] ∧ n ≠ u8!"." ∧ n ≠ u8!".." ∧ (0x2f : UInt8) ∉ n

instance (n : Str) : Decidable (PlainName n) := inferInstanceAs (Decidable (_ ∧ _))

theorem walk_append (a b : List Str) : ∀ st, walk st (a ++ b) = (walk st a).bind (walk · b) := by
  induction a with
  | nil => intro st; simp [walk]
  | cons n a ih =>
    intro st
    rw [List.cons_append]
    match st with
    | [] => rfl
    | .file _ :: _ => rfl
    | .dir es :: up =>
      simp only [walk]
      repeat' split
      all_goals first | exact ih _ | rfl

theorem walk_ne (ns : List Str) : ∀ st st', st ≠ [] → walk st ns = some st' → st' ≠ [] := by
  induction ns with
  | nil => intro st st' h e; simp only [walk, Option.some.injEq] at e; exact e ▸ h
  | cons n ns ih =>
    intro st st' h e
    match st with
    | [] => exact absurd rfl h
    | .file _ :: _ => cases e
    | .dir es :: up =>
      simp only [walk] at e
      repeat' split at e
      all_goals first
        | cases e; done
        | (refine ih _ _ ?_ e; grind)

theorem walk_entry (x : FsNode) (up : List FsNode) (n : Str) (h : PlainName n) :
    (walk (x :: up) [n]).bind List.head? = x.entry n := by
  obtain ⟨h1, h2, h3, _⟩ := h
  cases x with
  | file t => rfl
  | dir es =>
    simp only [walk, h1, h2, h3, FsNode.entry]
    cases es.lookup n <;> simp

theorem walk_slash (x : FsNode) (up : List FsNode) :
    (walk (x :: up) [[]]).bind List.head? = match x with | .file _ => none | .dir es => some (.dir es) := by
  cases x <;> simp [walk]

/-- Where a path starts. -/
def World.start (w : World) (absolute : Bool) : Option (List FsNode) :=
  if absolute then some [w.root] else walk [w.root] (pathOf w.cwd).names

theorem start_ne (w : World) (a : Bool) (st : List FsNode) (h : w.start a = some st) : st ≠ [] := by
  unfold World.start at h
  split at h
  · cases h; simp
  · exact walk_ne _ _ _ (by simp) h

theorem stat_eq (w : World) (a : Bool) (ns : List Str) (h : a = true ∨ ns ≠ []) :
    w.stat ⟨a, ns⟩ = ((w.start a).bind (walk · ns)).bind List.head? := by
  unfold World.stat World.start
  cases a with
  | true => simp
  | false => simp [show ns ≠ [] from h.resolve_left (by simp)]

/-- The names in the text of a path. -/
def nonEmptyParts (t : Str) : List Str := (slashParts t).filter (· ≠ [])

theorem slashParts_join_all (t f : Str) (hf : (0x2f : UInt8) ∉ f) :
    slashParts (t ++ 0x2f :: f) = slashParts t ++ [f] := by
  induction t with
  | nil => simp [slashParts, slashParts_plain f hf]
  | cons c t ih =>
    rw [List.cons_append, slashParts, slashParts, ih]
    split
    · rfl
    · cases h : slashParts t with
      | nil => exact absurd h (slashParts_ne t)
      | cons p ps => rfl

theorem joinPath_path (t f : Str) (ht : t ≠ []) (hf : PlainName f) :
    pathOf (joinPath t f) = ⟨t.head? = some 0x2f, nonEmptyParts t ++ [f]⟩ := by
  obtain ⟨h1, _, _, h4⟩ := hf
  have hlast : (nonEmptyParts t ++ [f]).getLast? ≠ some [] := by simp [h1]
  have key : ∀ s : Str, s.head? = t.head? → (slashParts s).filter (· ≠ []) = nonEmptyParts t ++ [f] →
      (slashParts s).getLast? = some f → pathOf s = ⟨t.head? = some 0x2f, nonEmptyParts t ++ [f]⟩ := by
    intro s e1 e2 e3
    simp only [pathOf, e1, e2, e3]
    simp [h1]
  by_cases hl : t.getLast? = some 0x2f
  · obtain ⟨u, rfl⟩ : ∃ u, t = u ++ [0x2f] := by
      rw [List.getLast?_eq_some_iff] at hl; exact hl
    have e : joinPath (u ++ [0x2f]) f = u ++ 0x2f :: f := by simp [joinPath]
    rw [e]
    have e2 : slashParts (u ++ [0x2f]) = slashParts u ++ [[]] := slashParts_join_all u [] (by simp)
    apply key
    · cases u <;> simp
    · rw [slashParts_join_all u f h4, nonEmptyParts, e2]
      simp [List.filter_append, h1]
    · rw [slashParts_join_all u f h4]; simp
  · have e : joinPath t f = t ++ 0x2f :: f := by simp [joinPath, ht, hl]
    rw [e]
    apply key
    · cases t with
      | nil => exact absurd rfl ht
      | cons c t => simp
    · rw [slashParts_join_all t f h4]
      simp [nonEmptyParts, List.filter_append, h1]
    · rw [slashParts_join_all t f h4]; simp

theorem nonEmpty_or_absolute (t : Str) (ht : t ≠ []) : t.head? = some 0x2f ∨ nonEmptyParts t ≠ [] := by
  cases t with
  | nil => exact absurd rfl ht
  | cons c t =>
    by_cases hc : c = 0x2f
    · left; simp [hc]
    · right
      unfold nonEmptyParts
      rw [slashParts, if_neg hc]
      cases slashParts t <;> simp

/-- `dir / name` is the entry of `dir`. -/
theorem stat_join (w : World) (t f : Str) (ht : t ≠ []) (hf : PlainName f) :
    w.stat (pathOf (joinPath t f)) = (w.stat (pathOf t)).bind (·.entry f) := by
  have ha := nonEmpty_or_absolute t ht
  rw [joinPath_path t f ht hf, stat_eq _ _ _ (.inr (by simp))]
  have hp : pathOf t = ⟨t.head? = some 0x2f, if nonEmptyParts t ≠ [] ∧ (slashParts t).getLast? = some [] then
    nonEmptyParts t ++ [[]] else nonEmptyParts t⟩ := rfl
  rw [hp]
  have e1 : ∀ b, ((w.start b).bind fun x => walk x (nonEmptyParts t ++ [f])) =
      ((w.start b).bind (walk · (nonEmptyParts t))).bind (walk · [f]) := by
    intro b; cases w.start b <;> simp [walk_append]
  rw [e1]
  have e2 : ∀ b, ((w.start b).bind fun x => walk x (nonEmptyParts t ++ [[]])) =
      ((w.start b).bind (walk · (nonEmptyParts t))).bind (walk · [[]]) := by
    intro b; cases w.start b <;> simp [walk_append]
  have hne : ∀ b st, (w.start b).bind (walk · (nonEmptyParts t)) = some st → st ≠ [] := by
    intro b st h
    cases hs : w.start b with
    | none => rw [hs] at h; cases h
    | some s0 => rw [hs] at h; exact walk_ne _ _ _ (start_ne w b s0 hs) h
  split
  · rw [stat_eq _ _ _ (.inr (by simp)), e2]
    cases hs : (w.start (decide (t.head? = some 0x2f))).bind (walk · (nonEmptyParts t)) with
    | none => rfl
    | some st =>
      cases st with
      | nil => exact absurd rfl (hne _ _ hs)
      | cons x up =>
        simp only [Option.bind_some]
        rw [walk_entry x up f hf, walk_slash]
        cases x <;> rfl
  · rw [stat_eq _ _ _ (by simpa using ha)]
    cases hs : (w.start (decide (t.head? = some 0x2f))).bind (walk · (nonEmptyParts t)) with
    | none => rfl
    | some st =>
      cases st with
      | nil => exact absurd rfl (hne _ _ hs)
      | cons x up =>
        simp only [Option.bind_some]
        rw [walk_entry x up f hf]
        rfl

/-! ## The text of a path -/

/-- A path that is the path of some text. -/
def FsPath.Proper (p : FsPath) : Prop :=
  ∃ names : List Str, (∀ n ∈ names, n ≠ [] ∧ (0x2f : UInt8) ∉ n) ∧
    (p.names = names ∨ names ≠ [] ∧ p.names = names ++ [[]])

theorem slashParts_no (t : Str) : ∀ n ∈ slashParts t, (0x2f : UInt8) ∉ n := by
  induction t with
  | nil => simp [slashParts]
  | cons c t ih =>
    intro n hn
    rw [slashParts] at hn
    split at hn
    · rcases List.mem_cons.mp hn with rfl | h
      · simp
      · exact ih n h
    · rename_i hc
      cases h : slashParts t with
      | nil => exact absurd h (slashParts_ne t)
      | cons p ps =>
        rw [h] at hn ih
        rcases List.mem_cons.mp hn with rfl | h
        · simp only [List.mem_cons, not_or]
          exact ⟨fun e => hc e.symm, ih p (by simp)⟩
        · exact ih n (by simp [h])

theorem pathOf_proper (t : Str) : (pathOf t).Proper := by
  refine ⟨nonEmptyParts t, fun n hn => ?_, ?_⟩
  · rw [nonEmptyParts, List.mem_filter] at hn
    exact ⟨by simpa using hn.2, slashParts_no t n hn.1⟩
  · have hp : (pathOf t).names = if nonEmptyParts t ≠ [] ∧ (slashParts t).getLast? = some [] then
      nonEmptyParts t ++ [[]] else nonEmptyParts t := rfl
    rw [hp]
    split
    · rename_i h; exact .inr ⟨h.1, rfl⟩
    · exact .inl rfl

theorem proper_parent {p : FsPath} (h : p.Proper) : p.parent.Proper := by
  obtain ⟨names, h1, h2 | ⟨_, h2⟩⟩ := h
  · exact ⟨names.dropLast, fun n hn => h1 n (List.dropLast_subset _ hn), .inl (by simp [FsPath.parent, h2])⟩
  · exact ⟨names, h1, .inl (by simp [FsPath.parent, h2])⟩

theorem child_names {p : FsPath} {names : List Str} (h1 : ∀ n ∈ names, n ≠ [] ∧ (0x2f : UInt8) ∉ n)
    (h2 : p.names = names ∨ names ≠ [] ∧ p.names = names ++ [[]]) (f : Str) :
    p.child f = ⟨p.absolute, names ++ [f]⟩ := by
  unfold FsPath.child
  rcases h2 with h2 | ⟨_, h2⟩
  · have : names.getLast? ≠ some [] := fun e => (h1 [] (List.mem_of_getLast? e)).1 rfl
    rw [h2, if_neg this]
  · rw [h2]; simp

theorem proper_child {p : FsPath} (h : p.Proper) (f : Str) (hf : PlainName f) : (p.child f).Proper := by
  obtain ⟨names, h1, h2⟩ := h
  refine ⟨names ++ [f], fun n hn => ?_, .inl (by rw [child_names h1 h2])⟩
  rcases List.mem_append.mp hn with h | h
  · exact h1 n h
  · rw [List.mem_singleton.mp h]; exact ⟨hf.1, hf.2.2.2⟩

theorem slashed_cons (n m : Str) (r : List Str) : slashed (n :: m :: r) = n ++ 0x2f :: slashed (m :: r) := by
  rw [slashed]; simp

theorem withSlashes_eq (names : List Str) : withSlashes names = slashed names := by
  induction names with
  | nil => rfl
  | cons n r ih =>
    cases r with
    | nil => rfl
    | cons m r =>
      rw [withSlashes, ih, slashed_cons]

theorem slashed_end (names : List Str) (h : names ≠ []) : slashed (names ++ [[]]) = slashed names ++ [0x2f] := by
  induction names with
  | nil => exact absurd rfl h
  | cons n r ih =>
    cases r with
    | nil => simp [slashed]
    | cons m r =>
      have ih := ih (by simp)
      rw [List.cons_append] at ih
      rw [List.cons_append, List.cons_append, slashed_cons, ih, slashed_cons]
      simp

theorem pathOf_slash (s : Str) : pathOf (0x2f :: s) = ⟨true, (pathOf s).names⟩ := by
  have e : slashParts (0x2f :: s) = [] :: slashParts s := by simp [slashParts]
  have el : ([] :: slashParts s).getLast? = (slashParts s).getLast? := by
    cases h : slashParts s with
    | nil => exact absurd h (slashParts_ne s)
    | cons p ps => simp [List.getLast?_cons]
  simp only [pathOf, e, el]
  simp

theorem path_text {p : FsPath} (h : p.Proper) : pathOf p.text = p := by
  obtain ⟨names, h1, h2⟩ := h
  have key : pathOf (withSlashes p.names) = ⟨false, p.names⟩ := by
    rw [withSlashes_eq]
    by_cases hn : names = []
    · subst hn
      rcases h2 with h2 | ⟨h, _⟩
      · rw [h2]; rfl
      · exact absurd rfl h
    · obtain ⟨c1, _, c3, _⟩ := C127_paths names hn h1
      rcases h2 with h2 | ⟨_, h2⟩
      · rw [h2]; exact c1
      · rw [h2, slashed_end names hn]; exact c3
  unfold FsPath.text
  cases p with
  | mk a ns =>
    cases a with
    | false => exact key
    | true =>
      show pathOf (0x2f :: withSlashes ns) = _
      rw [pathOf_slash, key]

theorem searchUp_proper (fs : Dirs) : ∀ (k : Nat) (p d : FsPath), p.names.length = k → p.Proper → searchUp fs p = some d →
    ∃ q : FsPath, q.Proper ∧ d = q.child (u8!"data") := by
  intro k
  induction k using Nat.strongRecOn with
  | _ k ih =>
    intro p d hk hp h
    rw [searchUp] at h
    split at h
    · cases h; exact ⟨p, hp, rfl⟩
    · split at h
      · cases h
      · rename_i hpp
        exact ih _ (hk ▸ FsPath.parent_lt hpp) _ d rfl (proper_parent hp) h

theorem getDataDir_proper (fs : Dirs) (cur : Str) (args : List Str) (d : FsPath) (h : getDataDir fs cur args = .ok d) :
    d.Proper := by
  have up : ∀ p : FsPath, p.Proper → searchUp fs p = some d → d.Proper := by
    intro p hp h
    obtain ⟨q, hq, rfl⟩ := searchUp_proper fs _ p d rfl hp h
    exact proper_child hq _ (by decide)
  have opt : ∀ as : List Str, dataArgLoop fs as = some (.ok d) → d.Proper := by
    intro as
    induction as with
    | nil => intro h; cases h
    | cons a as ih =>
      intro h
      rw [dataArgLoop] at h
      split at h
      · cases as with
        | nil => simp [dataArgValue] at h
        | cons v vs =>
          simp only [dataArgValue] at h
          split at h
          · simp at h
          · split at h
            · simp at h
            · simp only [Option.some.injEq, Except.ok.injEq] at h
              exact h ▸ pathOf_proper v
      · exact ih h
  unfold getDataDir at h
  split at h
  · rename_i r hr; exact opt _ (h ▸ hr)
  · split at h
    · rename_i f hf; cases h; exact up _ (pathOf_proper cur) hf
    · split at h
      · cases h
      · dsimp only at h
        split at h
        · split at h
          · rename_i f hf; cases h
            exact up _ (proper_parent (proper_parent (pathOf_proper _))) hf
          · cases h
        · cases h

end KT
