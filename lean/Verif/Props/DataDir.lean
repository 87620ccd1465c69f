import Verif.Model.DataDir
import Verif.Spec.DataDir
import Verif.Spec.Args
/-!
# The data directory: C126-C128
-/
namespace KT
open Spec

/-! ## Names and paths -/

theorem lastDot_some : ∀ (n a b : Str), lastDot n = some (a, b) ↔ ∃ r, n = a ++ b ∧ b = 0x2e :: r ∧ (0x2e : UInt8) ∉ r
  | [], a, b => by
    constructor
    · intro h; cases h
    · rintro ⟨r, h1, rfl, -⟩
      exact absurd h1 (by simp)
  | c :: n, a, b => by
    have ih := lastDot_some n
    have hnone : lastDot n = none ↔ (0x2e : UInt8) ∉ n := by
      clear ih
      induction n with
      | nil => simp [lastDot]
      | cons x n ih =>
        rw [lastDot]
        cases e : lastDot n with
        | none =>
          have := ih.1 e
          by_cases hx : x = 0x2e
          · simp [hx]
          · simp [this, hx, eq_comm]
        | some p =>
          simp only [reduceCtorEq, false_iff]
          intro h
          have h2 : (0x2e : UInt8) ∉ n := fun h' => h (by simp [h'])
          rw [ih.2 h2] at e
          cases e
    rw [lastDot]
    cases e : lastDot n with
    | none =>
      have hn := hnone.1 e
      by_cases hc : c = 0x2e
      · simp only [hc, if_true, Option.some.injEq, Prod.mk.injEq]
        constructor
        · rintro ⟨rfl, rfl⟩
          exact ⟨n, rfl, rfl, hn⟩
        · rintro ⟨r, h1, rfl, h3⟩
          cases a with
          | nil => simpa using h1
          | cons x a =>
            simp only [List.cons_append, List.cons.injEq] at h1
            exact absurd (by rw [h1.2]; simp) hn
      · simp only [hc, if_false, reduceCtorEq, false_iff]
        rintro ⟨r, h1, rfl, h3⟩
        cases a with
        | nil => simp at h1; exact hc h1.1
        | cons x a =>
          simp only [List.cons_append, List.cons.injEq] at h1
          exact absurd (by rw [h1.2]; simp) hn
    | some p =>
      obtain ⟨a', b'⟩ := p
      obtain ⟨r, h1, h2, h3⟩ := (ih a' b').1 e
      simp only [Option.some.injEq, Prod.mk.injEq]
      constructor
      · rintro ⟨rfl, rfl⟩
        exact ⟨r, by rw [h1]; rfl, h2, h3⟩
      · rintro ⟨r', h1', h2', h3'⟩
        cases a with
        | nil =>
          exfalso
          rw [h2'] at h1'
          simp only [List.nil_append, List.cons.injEq] at h1'
          rw [← h1'.2, h1, h2] at h3'
          exact h3' (by simp)
        | cons x a =>
          simp only [List.cons_append, List.cons.injEq] at h1'
          have := (ih a b).2 ⟨r', h1'.2, h2', h3'⟩
          rw [e] at this
          simp only [Option.some.injEq, Prod.mk.injEq] at this
          exact ⟨by rw [h1'.1, this.1], this.2⟩

/-- The extension is `.txt` for the names that end in `.txt` and have something before it. -/
theorem extension_txt (n : Str) : extensionOf n = u8!".txt" ↔ TextName n := by
  unfold extensionOf TextName
  by_cases hd : n = u8!".."
  · rw [if_pos hd]
    constructor
    · intro h; cases h
    · rintro ⟨b, -, h⟩
      rw [hd] at h
      have := congrArg List.length h
      simp at this
  · rw [if_neg hd]
    constructor
    · intro h
      cases e : lastDot n with
      | none => rw [e] at h; cases h
      | some p =>
        obtain ⟨a, b⟩ := p
        rw [e] at h
        obtain ⟨r, h1, -, -⟩ := (lastDot_some n a b).1 e
        simp only at h
        split at h
        · cases h
        · rename_i ha
          exact ⟨a, ha, by rw [h1, h]⟩
    · rintro ⟨b, hb, rfl⟩
      rw [(lastDot_some _ b (u8!".txt")).2 ⟨u8!"txt", rfl, rfl, by decide⟩]
      simp [hb]

theorem isValidDataDir_iff (names : List Str) : isValidDataDir names = true ↔ DataNames names := by
  unfold isValidDataDir DataNames
  rw [decide_eq_true_iff, List.countP_eq_length_filter]
  have : (fun n => decide (extensionOf n = u8!".txt")) = fun n => decide (TextName n) := by
    funext n
    exact decide_eq_decide.2 (extension_txt n)
  rw [this]

/-- A directory with ten text files. -/
def DataDir (fs : Dirs) (p : FsPath) : Prop := ∃ names, fs p = some names ∧ DataNames names

theorem valid_iff (fs : Dirs) (p : FsPath) : fs.valid p = true ↔ DataDir fs p := by
  unfold Dirs.valid DataDir
  cases fs p with
  | none => simp
  | some names => simp [isValidDataDir_iff]

/-! ## Searching -/

/-- The path itself and its parents up to the root, the path first. -/
def FsPath.selfAndParents (p : FsPath) : List FsPath :=
  (List.range (p.names.length + 1)).map fun i => { p with names := p.names.take (p.names.length - i) }

theorem selfAndParents_parent (p : FsPath) (h : p.names ≠ []) :
    p.selfAndParents = p :: p.parent.selfAndParents := by
  have hl : 0 < p.names.length := List.length_pos_iff.2 h
  unfold FsPath.selfAndParents FsPath.parent
  rw [List.range_succ_eq_map, List.map_cons, List.map_map]
  congr 1
  · simp
  · simp only [List.length_dropLast, Function.comp_def]
    rw [show p.names.length - 1 + 1 = p.names.length by omega]
    refine List.map_congr_left fun i hi => ?_
    congr 1
    rw [List.dropLast_eq_take, List.take_take]
    congr 1
    omega

theorem mem_selfAndParents (p q : FsPath) : q ∈ p.selfAndParents ↔ q.absolute = p.absolute ∧ q.names <+: p.names := by
  unfold FsPath.selfAndParents
  simp only [List.mem_map, List.mem_range]
  constructor
  · rintro ⟨i, -, rfl⟩
    exact ⟨rfl, List.take_prefix _ _⟩
  · rintro ⟨h1, h2⟩
    have hle := h2.length_le
    refine ⟨p.names.length - q.names.length, by omega, ?_⟩
    rw [show p.names.length - (p.names.length - q.names.length) = q.names.length by omega, ← List.prefix_iff_eq_take.1 h2]
    cases q; cases p
    simp_all

theorem searchUp_eq (fs : Dirs) : ∀ (n : Nat) (p : FsPath), p.names.length = n →
    searchUp fs p = (p.selfAndParents.map fun q => q.child (u8!"data")).find? fs.valid := by
  intro n
  induction n with
  | zero =>
    intro p hp
    have hn : p.names = [] := List.length_eq_zero_iff.1 hp
    have hs : p.selfAndParents = [p] := by
      cases p; simp_all [FsPath.selfAndParents]
    have hpp : p.parent = p := by cases p; simp_all [FsPath.parent]
    rw [searchUp, hs]
    simp only [List.map_cons, List.map_nil, List.find?_cons, List.find?_nil]
    split
    · rename_i h; rw [h]
    · rename_i h
      simp [h]
  | succ n ih =>
    intro p hp
    have hn : p.names ≠ [] := by intro h; rw [h] at hp; cases hp
    have hpp : ¬ p.parent = p := by
      intro h
      have := congrArg (fun q => q.names.length) h
      simp [FsPath.parent] at this
      omega
    rw [searchUp, selfAndParents_parent p hn, List.map_cons, List.find?_cons]
    split
    · rename_i h; rw [h]
    · rename_i h
      rw [ih p.parent (by simp [FsPath.parent]; omega)]
      simp [h]

/-- The search finds the nearest `data` directory with ten text files. -/
theorem searchUp_some (fs : Dirs) (p d : FsPath) :
    searchUp fs p = some d ↔ ∃ q : FsPath, q.absolute = p.absolute ∧ q.names <+: p.names ∧ d = q.child (u8!"data") ∧ DataDir fs d ∧
      ∀ r : FsPath, r.absolute = p.absolute → r.names <+: p.names → q.names.length < r.names.length →
        ¬ DataDir fs (r.child (u8!"data")) := by
  rw [searchUp_eq fs _ p rfl, List.find?_eq_some_iff_getElem]
  constructor
  · rintro ⟨hv, i, hi, he, hb⟩
    simp only [List.length_map, FsPath.selfAndParents, List.length_range] at hi
    simp only [List.getElem_map, FsPath.selfAndParents, List.getElem_range] at he hb
    refine ⟨⟨p.absolute, p.names.take (p.names.length - i)⟩, rfl, List.take_prefix _ _, he.symm, (valid_iff _ _).1 hv, ?_⟩
    intro r h1 h2 h3 h4
    have hle := h2.length_le
    simp only [List.length_take] at h3
    have := hb (p.names.length - r.names.length) (by omega)
    rw [show p.names.length - (p.names.length - r.names.length) = r.names.length by omega,
      ← List.prefix_iff_eq_take.1 h2] at this
    have hr : ({ absolute := p.absolute, names := r.names } : FsPath) = r := by cases r; simp_all
    rw [hr] at this
    rw [(valid_iff _ _).2 h4] at this
    cases this
  · rintro ⟨q, h1, h2, h3, h4, h5⟩
    have hle := h2.length_le
    have hq : ({ absolute := p.absolute, names := q.names } : FsPath) = q := by cases q; simp_all
    refine ⟨(valid_iff _ _).2 h4, p.names.length - q.names.length, ?_, ?_, ?_⟩
    · simp only [List.length_map, FsPath.selfAndParents, List.length_range]; omega
    · simp only [List.getElem_map, FsPath.selfAndParents, List.getElem_range]
      rw [show p.names.length - (p.names.length - q.names.length) = q.names.length by omega,
        ← List.prefix_iff_eq_take.1 h2, hq, h3]
    · intro j hj
      simp only [List.getElem_map, FsPath.selfAndParents, List.getElem_range]
      rw [Bool.not_eq_true']
      cases hv : fs.valid (FsPath.child { absolute := p.absolute, names := p.names.take (p.names.length - j) } (u8!"data")) with
      | false => rfl
      | true =>
        exfalso
        refine h5 ⟨p.absolute, p.names.take (p.names.length - j)⟩ rfl (List.take_prefix _ _) ?_ ((valid_iff _ _).1 hv)
        simp only [List.length_take]
        omega

theorem searchUp_none (fs : Dirs) (p : FsPath) :
    searchUp fs p = none ↔
      ∀ q : FsPath, q.absolute = p.absolute → q.names <+: p.names → ¬ DataDir fs (q.child (u8!"data")) := by
  rw [searchUp_eq fs _ p rfl, List.find?_eq_none]
  constructor
  · intro h q h1 h2 h3
    exact h _ (List.mem_map_of_mem ((mem_selfAndParents p q).2 ⟨h1, h2⟩)) ((valid_iff _ _).2 h3)
  · intro h d hd
    obtain ⟨q, hq, rfl⟩ := List.mem_map.1 hd
    obtain ⟨h1, h2⟩ := (mem_selfAndParents p q).1 hq
    exact fun hv => h q h1 h2 ((valid_iff _ _).1 hv)

/-! ## C126: the argument `-data` -/

theorem dataArgLoop_none (fs : Dirs) (args : List Str) : dataArgLoop fs args = none ↔ (u8!"-data") ∉ args := by
  induction args with
  | nil => simp [dataArgLoop]
  | cons a r ih =>
    rw [dataArgLoop]
    by_cases h : a = u8!"-data"
    · simp [h]
    · rw [if_neg h, ih, List.mem_cons, not_or]
      exact ⟨fun h' => ⟨fun e => h e.symm, h'⟩, fun h' => h'.2⟩

theorem dataArgLoop_first (fs : Dirs) (pre rest : List Str) (h : (u8!"-data") ∉ pre) :
    dataArgLoop fs (pre ++ u8!"-data" :: rest) = dataArgLoop fs (u8!"-data" :: rest) := by
  induction pre with
  | nil => rfl
  | cons a r ih =>
    rw [List.mem_cons, not_or] at h
    rw [List.cons_append, dataArgLoop, if_neg (fun e => h.1 e.symm), ih h.2]

/-- The argument after the first `-data` is the data directory if it is a directory with ten text files; otherwise, and
if nothing comes after it, there is an error.  Nothing else is looked at. -/
theorem C126_option (fs : Dirs) (cur prog : Str) (pre rest : List Str) (h : (u8!"-data") ∉ pre) :
    (rest = [] → getDataDir fs cur (prog :: pre ++ u8!"-data" :: rest) =
      .error (u8!"'-data' must be followed by a directory name")) ∧
    ∀ v more, rest = v :: more →
      (DataDir fs (pathOf v) → getDataDir fs cur (prog :: pre ++ u8!"-data" :: rest) = .ok (pathOf v)) ∧
      (fs (pathOf v) = none → getDataDir fs cur (prog :: pre ++ u8!"-data" :: rest) =
        .error (u8!"'" ++ v ++ u8!"' is not a valid directory")) ∧
      (fs (pathOf v) ≠ none → ¬ DataDir fs (pathOf v) → getDataDir fs cur (prog :: pre ++ u8!"-data" :: rest) =
        .error (u8!"'" ++ v ++ u8!"' does not contain 10 expected '.txt' files")) := by
  have e : getDataDir fs cur (prog :: pre ++ u8!"-data" :: rest) =
      match dataArgLoop fs (u8!"-data" :: rest) with
      | some r => r
      | none => getDataDir fs cur (prog :: pre ++ u8!"-data" :: rest) := by
    have hn : dataArgLoop fs (u8!"-data" :: rest) ≠ none := by
      rw [Ne, dataArgLoop_none]; simp
    conv => lhs; unfold getDataDir
    rw [List.cons_append, List.drop_succ_cons, List.drop_zero, dataArgLoop_first fs pre rest h]
    cases hd : dataArgLoop fs (u8!"-data" :: rest) with
    | none => exact absurd hd hn
    | some r => rfl
  rw [dataArgLoop, if_pos rfl] at e
  constructor
  · rintro rfl
    exact e
  · rintro v more rfl
    simp only [dataArgValue] at e
    refine ⟨?_, ?_, ?_⟩
    · rintro ⟨names, h1, h2⟩
      rw [e, h1]
      simp [(isValidDataDir_iff names).2 h2]
    · intro h1
      rw [e, h1]
    · intro h1 h2
      rw [e]
      cases hf : fs (pathOf v) with
      | none => exact absurd hf h1
      | some names =>
        have : isValidDataDir names = false := by
          cases hv : isValidDataDir names with
          | false => rfl
          | true => exact absurd ⟨names, hf, (isValidDataDir_iff names).1 hv⟩ h2
        simp [this, expectedTextFiles]

/-- Whatever the arguments are, a path that is returned is a directory with ten text files. -/
theorem C126_valid (fs : Dirs) (cur : Str) (args : List Str) (d : FsPath) (h : getDataDir fs cur args = .ok d) :
    DataDir fs d := by
  have hs : ∀ p, searchUp fs p = some d → DataDir fs d := by
    intro p hp
    obtain ⟨q, -, -, -, h, -⟩ := (searchUp_some fs p d).1 hp
    exact h
  have hl : ∀ l : List Str, dataArgLoop fs l = some (.ok d) → DataDir fs d := by
    intro l
    induction l with
    | nil => intro h; cases h
    | cons a r ih =>
      rw [dataArgLoop]
      split
      · intro h
        simp only [Option.some.injEq] at h
        cases r with
        | nil => cases h
        | cons v more =>
          simp only [dataArgValue] at h
          cases hf : fs (pathOf v) with
          | none => rw [hf] at h; cases h
          | some names =>
            rw [hf] at h
            simp only at h
            split at h
            · cases h
            · rename_i hv
              simp only [Except.ok.injEq] at h
              subst h
              exact ⟨names, hf, (isValidDataDir_iff names).1 (by simpa using hv)⟩
      · exact ih
  unfold getDataDir at h
  split at h
  · rename_i r hr
    rw [h] at hr
    exact hl _ hr
  · split at h
    · rename_i f hf
      simp only [Except.ok.injEq] at h
      rw [h] at hf
      exact hs _ hf
    · split at h
      · cases h
      · simp only at h
        split at h
        · split at h
          · rename_i f hf
            simp only [Except.ok.injEq] at h
            rw [h] at hf
            exact hs _ hf
          · cases h
        · cases h

/-! ## C127: searching for the directory -/

/-- Without `-data` the nearest `data` directory with ten text files at or above the current directory is used. -/
theorem C127_current (fs : Dirs) (cur : Str) (args : List Str) (h : (u8!"-data") ∉ args.drop 1) (d : FsPath)
    (hd : searchUp fs (pathOf cur) = some d) : getDataDir fs cur args = .ok d := by
  unfold getDataDir
  rw [(dataArgLoop_none fs _).2 h, hd]

/-- Otherwise the nearest one at or above the directory of the program. -/
def C127_statement : Prop :=
  ∀ (fs : Dirs) (cur prog : Str) (args : List Str) (d : FsPath), (u8!"-data") ∉ args →
    searchUp fs (pathOf cur) = none → (fs (pathOf prog).parent).isSome →
    searchUp fs (pathOf prog).parent = some d → getDataDir fs cur (prog :: args) = .ok d

/-- The names of ten text files. -/
def tenTextFiles : List Str := List.replicate 10 (u8!"a.txt")

/-- The directory of the program itself isn't looked at: a program `/x/prog` doesn't find `/x/data`. -/
theorem C127_violated : ¬ C127_statement := by
  intro h
  let fs : Dirs := fun p =>
    if p = ⟨true, [u8!"x", u8!"data"]⟩ then some tenTextFiles
    else if p = ⟨true, [u8!"x"]⟩ then some [u8!"prog", u8!"data"]
    else none
  have e1 : searchUp fs (pathOf (u8!"/")) = none := by
    rw [searchUp_eq fs _ _ rfl]; decide +kernel
  have e2 : searchUp fs (pathOf (u8!"/x/prog")).parent = some ⟨true, [u8!"x", u8!"data"]⟩ := by
    rw [searchUp_eq fs _ _ rfl]; decide +kernel
  have e3 : searchUp fs (pathOf (u8!"/x/prog")).parent.parent = none := by
    rw [searchUp_eq fs _ _ rfl]; decide +kernel
  have e4 : (fs (pathOf (u8!"/x/prog")).parent).isSome = true := by decide +kernel
  have := h fs (u8!"/") (u8!"/x/prog") [] _ (by simp) e1 e4 e2
  unfold getDataDir at this
  simp only [List.drop_succ_cons, List.drop_zero, dataArgLoop, e1, e4, e3, if_true] at this
  cases this

/-- What is used is the nearest one above the directory of the program (if this is a directory); if there is none then
the error names both places. -/
theorem C127_partial (fs : Dirs) (cur prog : Str) (args : List Str) (h : (u8!"-data") ∉ args)
    (hc : searchUp fs (pathOf cur) = none) :
    ((fs (pathOf prog).parent).isSome → ∀ d, searchUp fs (pathOf prog).parent.parent = some d →
      getDataDir fs cur (prog :: args) = .ok d) ∧
    ((fs (pathOf prog).parent).isSome → searchUp fs (pathOf prog).parent.parent = none →
      getDataDir fs cur (prog :: args) =
        .error (u8!"couldn't find 'data' directory with 10 expected '.txt' files:\n- searched up from current: " ++ cur ++
          u8!"\n- searched up from arg0: " ++ prog ++
          u8!"\nrun in a directory where 'data' can be found or use '-data <dir>'")) ∧
    (fs (pathOf prog).parent = none →
      getDataDir fs cur (prog :: args) =
        .error (u8!"couldn't find 'data' directory with 10 expected '.txt' files:\n- searched up from current: " ++ cur ++
          u8!"\nrun in a directory where 'data' can be found or use '-data <dir>'")) := by
  have e : getDataDir fs cur (prog :: args) =
      if (fs (pathOf prog).parent).isSome then
        match searchUp fs (pathOf prog).parent.parent with
        | some found => .ok found
        | none => .error (notFound ++ cur ++ u8!"\n- searched up from arg0: " ++ prog ++ notFoundEnd)
      else .error (notFound ++ cur ++ notFoundEnd) := by
    unfold getDataDir
    rw [List.drop_succ_cons, List.drop_zero, (dataArgLoop_none fs _).2 h, hc]
    rfl
  refine ⟨fun h1 d h2 => ?_, fun h1 h2 => ?_, fun h1 => ?_⟩
  · rw [e, if_pos h1, h2]
  · rw [e, if_pos h1, h2]
    simp [notFound, notFoundEnd, expectedTextFiles]
  · rw [e, h1]
    simp [notFound, notFoundEnd, expectedTextFiles]

/-- Both searches find the nearest directory; `C127_none` tells when there is none. -/
theorem C127_nearest (fs : Dirs) (p d : FsPath) (h : searchUp fs p = some d) :
    ∃ q : FsPath, q.absolute = p.absolute ∧ q.names <+: p.names ∧ d = q.child (u8!"data") ∧ DataDir fs d ∧
      ∀ r : FsPath, r.absolute = p.absolute → r.names <+: p.names → q.names.length < r.names.length →
        ¬ DataDir fs (r.child (u8!"data")) := (searchUp_some fs p d).1 h

theorem C127_none (fs : Dirs) (p : FsPath) :
    searchUp fs p = none ↔
      ∀ q : FsPath, q.absolute = p.absolute → q.names <+: p.names → ¬ DataDir fs (q.child (u8!"data")) :=
  searchUp_none fs p

theorem slashParts_name (n : Str) (h : (0x2f : UInt8) ∉ n) : slashParts n = [n] := by
  induction n with
  | nil => rfl
  | cons c n ih =>
    rw [List.mem_cons, not_or] at h
    rw [slashParts, if_neg (fun e => h.1 e.symm), ih h.2]

theorem slashParts_append (n r : Str) (h : (0x2f : UInt8) ∉ n) : slashParts (n ++ 0x2f :: r) = n :: slashParts r := by
  induction n with
  | nil => simp [slashParts]
  | cons c n ih =>
    rw [List.mem_cons, not_or] at h
    rw [List.cons_append, slashParts, if_neg (fun e => h.1 e.symm), ih h.2]

/-- Names put together with slashes. -/
def slashed : List Str → Str
  | [] => []
  | [n] => n
  | n :: r => n ++ 0x2f :: slashed r

theorem slashParts_slashed (names : List Str) (hne : names ≠ []) (h : ∀ n ∈ names, (0x2f : UInt8) ∉ n) :
    slashParts (slashed names) = names := by
  induction names with
  | nil => exact absurd rfl hne
  | cons n r ih =>
    cases r with
    | nil => exact slashParts_name n (h n (by simp))
    | cons m r =>
      rw [slashed, slashParts_append _ _ (h n (by simp)), ih (by simp) fun x hx => h x (by simp [hx])]
      simp

theorem names_filter (names : List Str) (h : ∀ n ∈ names, n ≠ []) : names.filter (· ≠ []) = names :=
  List.filter_eq_self.2 fun n hn => by simpa using h n hn

/-- The text of a path determines its names; the directory of a program is given by all names except the last one. -/
theorem C127_paths (names : List Str) (hne : names ≠ []) (h : ∀ n ∈ names, n ≠ [] ∧ (0x2f : UInt8) ∉ n) :
    pathOf (slashed names) = ⟨false, names⟩ ∧ pathOf (0x2f :: slashed names) = ⟨true, names⟩ ∧
    pathOf (slashed names ++ [0x2f]) = ⟨false, names ++ [[]]⟩ ∧
    (∀ a, (FsPath.mk a names).parent = ⟨a, names.dropLast⟩ ∧ (FsPath.mk a names).child (u8!"data") = ⟨a, names ++ [u8!"data"]⟩ ∧
      (FsPath.mk a (names ++ [[]])).parent = ⟨a, names⟩ ∧
      (FsPath.mk a (names ++ [[]])).child (u8!"data") = ⟨a, names ++ [u8!"data"]⟩) := by
  have hf := names_filter names fun n hn => (h n hn).1
  have hs := slashParts_slashed names hne fun n hn => (h n hn).2
  have hlast : names.getLast? ≠ some [] := by
    intro e
    exact (h [] (List.mem_of_getLast? e)).1 rfl
  have hhead : (slashed names).head? ≠ some 0x2f := by
    intro e
    cases names with
    | nil => exact hne rfl
    | cons n r =>
      have hn := h n (by simp)
      cases n with
      | nil => exact hn.1 rfl
      | cons c n =>
        cases r <;> simp [slashed] at e <;> exact hn.2 (by simp [e])
  have happ : ∀ (names : List Str), names ≠ [] → (∀ n ∈ names, (0x2f : UInt8) ∉ n) →
      slashParts (slashed names ++ [0x2f]) = names ++ [[]] := by
    intro names
    induction names with
    | nil => intro h; exact absurd rfl h
    | cons n r ih =>
      intro _ h
      cases r with
      | nil => rw [slashed, slashParts_append _ _ (h n (by simp))]; rfl
      | cons m r =>
        rw [slashed, List.append_assoc, List.cons_append, slashParts_append _ _ (h n (by simp)),
          ih (by simp) fun x hx => h x (by simp [hx])]
        · simp
        · simp
  refine ⟨?_, ?_, ?_, fun a => ⟨rfl, ?_, ?_, ?_⟩⟩
  · simp only [pathOf, hs, hf]
    simp [hhead, hlast]
  · simp only [pathOf, slashParts, if_true, hs]
    rw [List.filter_cons_of_neg (by simp), hf]
    have : ([] :: names).getLast? = names.getLast? := by
      cases names with
      | nil => exact absurd rfl hne
      | cons x xs => simp [List.getLast?_cons]
    simp [this, hlast]
  · simp only [pathOf, happ names hne fun n hn => (h n hn).2]
    rw [List.filter_append, hf]
    have : (slashed names ++ [0x2f]).head? ≠ some 0x2f := by
      cases hsn : slashed names with
      | nil =>
        exfalso
        rw [hsn] at hs
        have : [[]] = names := hs
        exact (h [] (by rw [← this]; simp)).1 rfl
      | cons c r => rw [hsn] at hhead; simpa using hhead
    have e : decide ((slashed names ++ [0x2f]).head? = some 0x2f) = false := decide_eq_false this
    rw [e]
    simp [hne]
  · simp [FsPath.child, hlast]
  · simp [FsPath.parent]
  · simp [FsPath.child]

/-! ## C128: the value of `-data` isn't an option -/

/-- The arguments after the name of the program that aren't the value of a `-data`; `skip` is true right after `-data`. -/
def withoutDataValues : Bool → List Str → List Str
  | _, [] => []
  | true, _ :: as => withoutDataValues false as
  | false, a :: as => a :: withoutDataValues (a = u8!"-data") as

/-- The debug mode only depends on the arguments that aren't the value of `-data`. -/
def C128_statement : Prop :=
  ∀ (prog : Str) (args : List Str), getDebugMode (prog :: args) = getDebugMode (prog :: withoutDataValues false args)

/-- The directory in `-data -debug` is taken as an option, although `nextArg` and `getDataDir` use it as the value. -/
theorem C128_violated : ¬ C128_statement := by
  intro h
  have := h (u8!"prog") [u8!"-data", u8!"-debug"]
  revert this
  decide

/-- It holds if no directory is called `-debug` or `-info`. -/
theorem C128_partial (prog : Str) (args : List Str)
    (h : ∀ i v, args[i]? = some (u8!"-data") → args[i + 1]? = some v → v ≠ u8!"-debug" ∧ v ≠ u8!"-info") :
    getDebugMode (prog :: args) = getDebugMode (prog :: withoutDataValues false args) := by
  unfold getDebugMode
  rw [List.drop_succ_cons, List.drop_zero, List.drop_succ_cons, List.drop_zero]
  have key : ∀ (args : List Str) (mode : DebugMode) (skip : Bool),
      (∀ i v, args[i]? = some (u8!"-data") → args[i + 1]? = some v → v ≠ u8!"-debug" ∧ v ≠ u8!"-info") →
      (skip = true → ∀ v, args[0]? = some v → v ≠ u8!"-debug" ∧ v ≠ u8!"-info") →
      debugModeLoop args mode = debugModeLoop (withoutDataValues skip args) mode := by
    intro args
    induction args with
    | nil => intro mode skip _ _; cases skip <;> rfl
    | cons a r ih =>
      intro mode skip h hs
      have h' : ∀ i v, r[i]? = some (u8!"-data") → r[i + 1]? = some v → v ≠ u8!"-debug" ∧ v ≠ u8!"-info" :=
        fun i v h1 h2 => h (i + 1) v (by simpa using h1) (by simpa using h2)
      cases skip with
      | true =>
        obtain ⟨h1, h2⟩ := hs rfl a rfl
        rw [withoutDataValues, debugModeLoop, if_neg h1, if_neg h2]
        exact ih mode false h' fun h => by cases h
      | false =>
        have hn : decide (a = u8!"-data") = true → ∀ v, r[0]? = some v → v ≠ u8!"-debug" ∧ v ≠ u8!"-info" := by
          intro ha v hv
          rw [decide_eq_true_iff] at ha
          exact h 0 v (by simp [ha]) (by simpa using hv)
        rw [withoutDataValues, debugModeLoop, debugModeLoop, ih .full _ h' hn, ih .info _ h' hn, ih mode _ h' hn]
  exact key args .none false h fun h => by cases h

/-! ## Examples -/

/-- A file system like that of the tests: `/home/kanji-tools/data` has ten text files. -/
def sampleDirs : Dirs := fun p =>
  if p = ⟨true, [u8!"home", u8!"kanji-tools", u8!"data"]⟩ then some (u8!"jlpt" :: u8!".txt" :: tenTextFiles)
  else if p = ⟨true, []⟩ then some [u8!"home"]
  else if p = ⟨true, [u8!"home", u8!"kanji-tools"]⟩ then some [u8!"data", u8!"build"]
  else if p = ⟨true, [u8!"home", u8!"kanji-tools", u8!"build"]⟩ then some [u8!"quiz"]
  else none

example : getDataDir sampleDirs (u8!"/") [u8!"Arg0", u8!"-data"] =
    .error (u8!"'-data' must be followed by a directory name") :=
  (C126_option sampleDirs (u8!"/") (u8!"Arg0") [] [] (by simp)).1 rfl
example : getDataDir sampleDirs (u8!"/") [u8!"Arg0", u8!"-data", u8!"testDir"] =
    .error (u8!"'testDir' is not a valid directory") :=
  ((C126_option sampleDirs (u8!"/") (u8!"Arg0") [] [u8!"testDir"] (by simp)).2 _ _ rfl).2.1 (by decide)
example : getDataDir sampleDirs (u8!"/") [u8!"Arg0", u8!"-data", u8!"/home/kanji-tools/data"] =
    .ok ⟨true, [u8!"home", u8!"kanji-tools", u8!"data"]⟩ :=
  ((C126_option sampleDirs (u8!"/") (u8!"Arg0") [] [u8!"/home/kanji-tools/data"] (by simp)).2 _ _ rfl).1
    ⟨_, rfl, by unfold DataNames; decide⟩
example : searchUp sampleDirs (pathOf (u8!"/home/kanji-tools/build/x/y")) =
    some ⟨true, [u8!"home", u8!"kanji-tools", u8!"data"]⟩ := by
  rw [searchUp_eq _ _ _ rfl]; decide +kernel
example : getDataDir sampleDirs (u8!"/") [u8!"/home/kanji-tools/build/quiz"] =
    .ok ⟨true, [u8!"home", u8!"kanji-tools", u8!"data"]⟩ :=
  (C127_partial sampleDirs (u8!"/") (u8!"/home/kanji-tools/build/quiz") [] (by simp)
    (by rw [searchUp_eq _ _ _ rfl]; decide +kernel)).1 (by decide +kernel) _
    (by rw [searchUp_eq _ _ _ rfl]; decide +kernel)

end KT
