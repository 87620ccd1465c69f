import Verif.Lemmas.Enum
/-!
# C15 - C18: enum lists, iterators and maps

`n` is the number of values (at most 255, the largest `Enum::Size`); an enum value is its number.
-/
namespace KT

/-! ## C15: list indexes are checked -/

/-- The full claim: `list[i]` gives the `i`-th value for `0 ≤ i < n` and throws otherwise. -/
def C15_statement : Prop := ∀ (n : Nat) (i : Int), 0 < n → n ≤ 255 →
  (∀ k : Nat, i = k → k < n → enumListAt n i = .ok k) ∧
  (¬ (0 ≤ i ∧ i < n) → enumListAt n i = .throw .range)

/-- The code violates the claim: the index is cut to 8 bits before it is compared, so index 256 of a
list with three values gives the first value and -254 the third. -/
theorem C15_violated : ¬ C15_statement ∧ enumListAt 3 256 = .ok 0 ∧ enumListAt 3 (-254) = .ok 2 := by
  refine ⟨fun h => ?_, by decide, by decide⟩
  have := (h 3 256 (by decide) (by decide)).2 (by decide)
  revert this
  decide

/-- What holds: valid indexes give the value, indexes in `[n - 256, 255]` outside of `[0, n)` throw,
and for any integer whatsoever the result is a RangeError or a value of the enum - the one at the
index modulo 256. -/
theorem C15_partial (n : Nat) (i : Int) (hn : n ≤ 255) :
    (∀ k : Nat, i = k → k < n → enumListAt n i = .ok k) ∧
    (¬ (0 ≤ i ∧ i < n) → (n : Int) - 256 ≤ i → i < 256 → enumListAt n i = .throw .range) ∧
    (enumListAt n i = .throw .range ∨
      ∃ k : Nat, k < n ∧ (k : Int) = i % 256 ∧ enumListAt n i = .ok k) := by
  refine ⟨?_, ?_, ?_⟩
  · rintro k rfl hk; exact checkIndex_nat hn hk
  · intro h1 h2 h3
    have : toSize i ≥ n := by unfold toSize; omega
    simp [enumListAt, checkIndex, this]
  · by_cases h : toSize i ≥ n
    · left; simp [enumListAt, checkIndex, h]
    · right
      refine ⟨toSize i, by omega, ?_, by simp [enumListAt, checkIndex, h]⟩
      unfold toSize; omega

example : enumListAt 3 2 = .ok 2 ∧ enumListAt 3 3 = .throw .range ∧ enumListAt 3 (-1) = .throw .range ∧
    enumListAt 255 (-1) = .throw .range := by decide

/-! ## C16: iterators stay between begin and end -/

/-- Exact result of an operation on positions. -/
def IterOp.exact (idx : Nat) : IterOp → Int
  | .inc => idx + 1
  | .dec => idx - 1
  | .add i => idx + i
  | .sub i => idx - i

/-- The full claim: starting at `begin` (0), after any history the position is in `[0, n]`; an
operation succeeds exactly when its exact result is in that interval and then gives this result,
otherwise RangeError is thrown. Dereferencing throws exactly at `end`. -/
def C16_statement : Prop := ∀ (n : Nat) (ops : List IterOp) (idx : Nat), n ≤ 255 →
  runIter n 0 ops = .ok idx → idx ≤ n ∧
  (iterDeref n idx = if idx = n then .throw .range else .ok idx) ∧
  ∀ op : IterOp, (∀ j : Nat, op.exact idx = j → j ≤ n → op.apply n idx = .ok j) ∧
    (¬ (0 ≤ op.exact idx ∧ op.exact idx ≤ n) → op.apply n idx = .throw .range)

/-- The code violates the claim: `begin += 256` stays at begin instead of throwing, and the
arithmetic is undefined near the limits of the difference type. -/
theorem C16_violated : ¬ C16_statement ∧ iterAdd 3 0 256 = .ok 0 ∧ iterAdd 3 1 (2 ^ 63 - 1) = .ub ∧
    iterSub 3 0 (-2 ^ 63) = .ub := by
  refine ⟨fun h => ?_, by decide, by decide, by decide⟩
  have := ((h 3 [] 0 (by decide) rfl).2.2 (.add 256)).2 (by simp [IterOp.exact])
  revert this
  decide

/-- The interval is never left, whatever the history and its arguments (narrowing included). -/
theorem C16_invariant (n : Nat) (hn : n ≤ 255) (ops : List IterOp) (idx : Nat)
    (h : runIter n 0 ops = .ok idx) : idx ≤ n :=
  runIter_le hn ops (Nat.zero_le _) h

/-- Dereferencing throws exactly at `end`, after any history. -/
theorem C16_deref (n : Nat) (hn : n ≤ 255) (ops : List IterOp) (idx : Nat)
    (h : runIter n 0 ops = .ok idx) :
    (idx = n → iterDeref n idx = .throw .range) ∧ (idx ≠ n → iterDeref n idx = .ok idx) := by
  have := C16_invariant n hn ops idx h
  constructor
  · rintro rfl; simp [iterDeref]
  · intro hne; simp [iterDeref]; omega

/-- For exact results below 256 (and all negative ones) the operations do what is claimed, after any
history.  Missing: exact results of 256 and above, see `C16_violated`. -/
theorem C16_exact_partial (n : Nat) (hn : n ≤ 255) (ops : List IterOp) (idx : Nat)
    (h : runIter n 0 ops = .ok idx) (op : IterOp) (hb : op.exact idx < 256)
    (hi : ∀ i, op = .sub i → -2 ^ 63 < i) :
    (∀ j : Nat, op.exact idx = j → j ≤ n → op.apply n idx = .ok j) ∧
    (¬ (0 ≤ op.exact idx ∧ op.exact idx ≤ n) → op.apply n idx = .throw .range) := by
  have hle := C16_invariant n hn ops idx h
  cases op with
  | inc =>
    simp only [IterOp.exact, IterOp.apply, iterInc] at *
    constructor
    · intro j hj hjn
      rw [if_neg (by omega)]
      congr 1; unfold toSize; omega
    · intro hno; rw [if_pos (by omega)]
  | dec =>
    simp only [IterOp.exact, IterOp.apply, iterDec] at *
    constructor
    · intro j hj hjn
      rw [if_neg (by omega)]
      congr 1; unfold toSize; omega
    · intro hno; rw [if_pos (by omega)]
  | add i =>
    simp only [IterOp.exact, IterOp.apply, iterAdd] at *
    rw [if_neg (by omega)]
    constructor
    · intro j hj hjn
      rw [if_neg (by omega)]
      have : toSize (↑idx + i) = j := by unfold toSize; omega
      rw [this, if_neg (by omega)]
    · intro hno
      by_cases h0 : (idx : Int) + i < 0
      · rw [if_pos h0]
      · rw [if_neg h0, if_pos (by unfold toSize; omega)]
  | sub i =>
    have := hi i rfl
    simp only [IterOp.exact, IterOp.apply, iterSub, iterAdd] at *
    rw [if_neg (by omega), if_neg (by omega)]
    constructor
    · intro j hj hjn
      rw [if_neg (by omega)]
      have : toSize (↑idx + -i) = j := by unfold toSize; omega
      rw [this, if_neg (by omega)]
    · intro hno
      by_cases h0 : (idx : Int) + -i < 0
      · rw [if_pos h0]
      · rw [if_neg h0, if_pos (by unfold toSize; omega)]

example : runIter 5 0 [.inc, .inc, .dec, .add 4, .inc, .sub 2, .sub 100] = .ok 3 := by decide

/-! ## C17: names and values correspond -/

/-- `create` succeeds exactly when no instance exists, no name is used twice, and "None" is not
used for a list with None; every failure is a DomainError. -/
theorem C17_create (wn ex : Bool) (names : List Str) :
    ((∃ l, enumCreate wn ex names = .ok l) ↔
      ex = false ∧ names.Nodup ∧ (wn = true → u8!"None" ∉ names)) ∧
    ((¬ ∃ l, enumCreate wn ex names = .ok l) → enumCreate wn ex names = .throw .domain) := by
  unfold enumCreate
  cases ex with
  | true => simp
  | false =>
    simp only [Bool.false_eq_true, if_false]
    rcases enumCtor_spec wn names.length names (Nat.le_refl _) with ⟨hn, hw, st, hst, inv⟩ | ⟨hb, ht⟩
    · refine ⟨⟨fun _ => ⟨trivial, hn, hw⟩, fun _ => ⟨st, hst⟩⟩, fun h => absurd ⟨st, hst⟩ h⟩
    · refine ⟨⟨?_, fun h => absurd ⟨h.2.1, h.2.2⟩ hb⟩, fun _ => ht⟩
      rintro ⟨l, hl⟩; rw [ht] at hl; simp at hl

/-- After a successful `create`: value `i` has the name given at position `i`; a name is converted to
value `i` exactly when it was given at position `i`; all other names are rejected. -/
theorem C17_names (wn : Bool) (names : List Str) (l : EnumNames)
    (hn : names.length + (if wn then 1 else 0) ≤ 255) (h : enumCreate wn false names = .ok l) :
    (∀ i s, names[i]? = some s → l.toString wn i = .ok s) ∧
    (∀ i s, l.fromString s = .ok i ↔ names[i]? = some s) ∧
    (∀ s, s ∉ names → l.fromString s = .throw .domain) := by
  obtain ⟨h1, h2, h3, h4, h5⟩ := enumCreate_spec h
  have key : ∀ s, s ∉ names → l.fromString s = .throw .domain := by
    intro s hs
    have : ¬ (l.nameMap.lookup s).isSome = true := by rw [lookup_isSome_iff, h2]; exact hs
    cases hq : l.nameMap.lookup s with
    | none => simp [EnumNames.fromString, hq]
    | some x => rw [hq] at this; simp at this
  refine ⟨?_, ?_, key⟩
  · intro i s hs
    have hi : i < names.length := (List.getElem?_eq_some_iff.mp hs).1
    unfold EnumNames.toString
    rw [h1]
    have hne : (i == names.length) = false := by simp; omega
    simp only [hne, Bool.and_false, Bool.false_eq_true, if_false]
    rw [checkIndex_nat (by split at hn <;> simp_all) (by split <;> omega)]
    simp [hs]
  · intro i s
    constructor
    · intro hs
      by_cases hm : s ∈ names
      · obtain ⟨k, hk⟩ := List.getElem?_of_mem hm
        have := h5 k s hk
        simp [EnumNames.fromString, this] at hs
        rw [← hs]; exact hk
      · rw [key s hm] at hs; simp at hs
    · intro hs
      simp [EnumNames.fromString, h5 i s hs]

/-- Lists with None: None is printed as "None" and is the number after the last value; the three
variants accept exactly the extra spellings; "None" itself is not accepted by `fromString`; values
after None are rejected by `toString`. -/
theorem C17_none (names : List Str) (l : EnumNames) (hn : names.length < 255)
    (h : enumCreate true false names = .ok l) :
    l.toString true names.length = .ok (u8!"None") ∧
    (∀ x, names.length < x → x < 256 → l.toString true x = .throw .range) ∧
    l.fromString (u8!"None") = .throw .domain ∧
    (∀ s, l.fromStringAllowEmpty s = if s = [] then .ok names.length else l.fromString s) ∧
    (∀ s, l.fromStringAllowNone s = if s = u8!"None" then .ok names.length else l.fromString s) ∧
    (∀ s, l.fromStringAllowEmptyAndNone s =
      if s = [] ∨ s = u8!"None" then .ok names.length else l.fromString s) := by
  obtain ⟨h1, h2, h3, h4, h5⟩ := enumCreate_spec h
  refine ⟨?_, ?_, (C17_names true names l (by simp; omega) h).2.2 _ (h4 rfl), ?_, ?_, ?_⟩
  · simp [EnumNames.toString, h1, noneName]
  · intro x hx hb
    unfold EnumNames.toString
    rw [h1]
    have : (x == names.length) = false := by simp; omega
    simp only [this, Bool.and_false, Bool.false_eq_true, if_false, if_true]
    rw [checkIndex_bad (by omega) hb]; rfl
  · intro s; cases s <;> simp [EnumNames.fromStringAllowEmpty, h1]
  · intro s; simp [EnumNames.fromStringAllowNone, h1, noneName]
  · intro s
    simp only [EnumNames.fromStringAllowEmptyAndNone, h1, noneName]
    cases s <;> simp

/-- An enum list without `None` has no name for other values. -/
theorem C17_other_values (names : List Str) (l : EnumNames) (h : enumCreate false false names = .ok l) (x : Nat)
    (hx : names.length ≤ x) (hb : x < 256) : l.toString false x = .throw .range := by
  obtain ⟨h1, -⟩ := enumCreate_spec h
  unfold EnumNames.toString
  rw [h1]
  simp only [Bool.false_and, Bool.false_eq_true, if_false]
  rw [checkIndex_bad hx hb]; rfl

example : ∃ l, enumCreate true false [u8!"Red", u8!"Green", u8!"Blue"] = .ok l ∧
    l.fromString (u8!"Green") = .ok 1 ∧ l.toString true 2 = .ok (u8!"Blue") ∧
    l.toString true 3 = .ok (u8!"None") := ⟨_, rfl, by decide, by decide, by decide⟩
example : enumCreate false false [u8!"Red", u8!"Green", u8!"Red"] = .throw .domain := by decide

/-! ## C18: maps -/

/-- The value last written for key `k`, if any. -/
def lastWrite {V : Type} (k : Nat) : List (Nat × V) → Option V
  | [] => none
  | (j, v) :: ops => match lastWrite k ops with
    | some w => some w
    | none => if j = k then some v else none

theorem run_spec {V : Type} [Inhabited V] (ops : List (Nat × V)) :
    ∀ (m : EnumMap V), m.values.length ≤ 255 → (∀ p ∈ ops, p.1 < 256) →
    ∃ m', m.run ops = .ok m' ∧ m'.values.length = m.values.length ∧
      ∀ k < m.values.length, m'.values[k]? = (lastWrite k ops).or m.values[k]? := by
  induction ops with
  | nil => intro m _ _; exact ⟨m, rfl, rfl, by simp [lastWrite]⟩
  | cons p ops ih =>
    obtain ⟨j, v⟩ := p
    intro m hm hb
    have hj : j < 256 := hb (j, v) (by simp)
    have hb' : ∀ p ∈ ops, p.1 < 256 := fun p hp => hb p (by simp [hp])
    by_cases h : j < m.values.length
    · obtain ⟨m', h1, h2, h3⟩ := ih ⟨m.values.set j v⟩ (by simpa using hm) hb'
      refine ⟨m', by simp [EnumMap.run, put_ok hm h, h1], by simpa using h2, ?_⟩
      intro k hk
      rw [h3 k (by simpa using hk)]
      simp only [lastWrite]
      cases lastWrite k ops with
      | some w => simp
      | none =>
        by_cases hjk : j = k
        · subst hjk; simp [List.getElem?_set_self h]
        · simp [hjk, List.getElem?_set_ne hjk]
    · obtain ⟨m', h1, h2, h3⟩ := ih m hm hb'
      refine ⟨m', ?_, h2, ?_⟩
      · simp [EnumMap.run, EnumMap.put, checkIndex_bad (by omega : m.values.length ≤ j) hj, h1]
      · intro k hk
        rw [h3 k hk]
        simp only [lastWrite]
        cases lastWrite k ops with
        | some w => rfl
        | none => simp [show ¬ j = k by omega]

/-- After any history of assignments (with any values of the enum's underlying type as keys) to a new
map for `n` keys, reading a key gives the last value written or the default value; None reads as the
default value. -/
theorem C18_total_map {V : Type} [Inhabited V] (n : Nat) (hn : n ≤ 255) (ops : List (Nat × V))
    (hb : ∀ p ∈ ops, p.1 < 256) :
    ∃ m, (EnumMap.new n : EnumMap V).run ops = .ok m ∧
      (∀ k < n, m.get k = .ok ((lastWrite k ops).getD default)) ∧ m.get n = .ok default ∧
      (∀ k, n < k → k < 256 → m.get k = .throw .range) := by
  obtain ⟨m, h1, h2, h3⟩ := run_spec ops (EnumMap.new n : EnumMap V) (by simpa [EnumMap.new] using hn) hb
  have hl : m.values.length = n := by simpa [EnumMap.new] using h2
  have hl0 : (EnumMap.new n : EnumMap V).values.length = n := by simp [EnumMap.new]
  refine ⟨m, h1, ?_, ?_, ?_⟩
  · intro k hk
    have h := h3 k (by omega)
    have h0 : (EnumMap.new n : EnumMap V).values[k]? = some default := by
      simp [EnumMap.new, hk]
    rw [h0] at h
    simp only [EnumMap.get, hl]
    rw [if_neg (by omega), checkIndex_nat hn hk]
    simp only [Res.bind_ok, h]
    cases lastWrite k ops <;> rfl
  · simp [EnumMap.get, hl]
  · intro k hk hkb
    simp only [EnumMap.get, hl]
    rw [if_neg (by omega), checkIndex_bad (by omega) hkb]; rfl

/-- None (and values beyond it) can't be written. -/
theorem C18_none_not_written {V : Type} [Inhabited V] (m : EnumMap V) (k : Nat) (v : V)
    (hk : m.values.length ≤ k) (hb : k < 256) : m.put k v = .throw .range := by
  simp [EnumMap.put, checkIndex_bad hk hb]

/-- An iterator gives the value at its position and throws a `RangeError` at the end (or behind it) and a
`DomainError` if it belongs to no map. -/
theorem C18_deref {V : Type} [Inhabited V] (m : EnumMap V) (a : MapIter) (hm : m.values.length ≤ 255) :
    (a.map = none → a.deref m = .throw .domain) ∧
    (a.map ≠ none → a.deref m = match m.values[a.idx]? with
      | some v => .ok v
      | none => .throw .range) := by
  unfold MapIter.deref
  constructor
  · intro h; rw [h]
  · intro h
    cases ha : a.map with
    | none => exact absurd ha h
    | some x =>
      simp only
      by_cases hi : a.idx ≥ m.values.length
      · rw [if_pos hi, List.getElem?_eq_none hi]
      · rw [if_neg hi]
        have hi' : a.idx < m.values.length := by omega
        rw [List.getElem?_eq_getElem hi']
        simp only [EnumMap.get]
        rw [if_neg (by omega), checkIndex_nat hm hi']
        simp [List.getElem?_eq_getElem hi']

theorem iterate_spec {V : Type} [Inhabited V] (m : EnumMap V) (self : Nat)
    (hm : m.values.length ≤ 255) (d : Nat) :
    ∀ idx, idx + d = m.values.length →
      m.iterate self (d + 1) ⟨idx, some self⟩ = .ok (some (m.values.drop idx)) := by
  induction d with
  | zero =>
    intro idx h
    simp at h
    simp [EnumMap.iterate, MapIter.eq, h]
  | succ d ih =>
    intro idx h
    rw [EnumMap.iterate]
    have hne : (idx == m.values.length) = false := by simp; omega
    simp only [MapIter.eq, if_true, hne, Res.bind_ok, Bool.false_eq_true, if_false]
    have hv : m.values[idx]? = some (m.values[idx]'(by omega)) := List.getElem?_eq_getElem _
    have hge : m.get idx = .ok (m.values[idx]'(by omega)) := by
      simp only [EnumMap.get]
      rw [if_neg (by omega), checkIndex_nat hm (by omega)]
      simp [hv]
    have hinc : iterInc m.values.length idx = .ok (idx + 1) := by
      simp only [iterInc]
      rw [if_neg (by omega)]
      congr 1; unfold toSize; omega
    simp only [MapIter.deref]
    rw [if_neg (by omega), hge]
    simp only [Res.bind_ok, hinc, ih (idx + 1) (by omega)]
    rw [List.drop_eq_getElem_cons (by omega : idx < m.values.length)]

/-- A loop over a map ends, throws nothing, and visits the value of each key once, in key order. -/
theorem C18_iteration {V : Type} [Inhabited V] (m : EnumMap V) (self : Nat)
    (hm : m.values.length ≤ 255) :
    ∃ vs, m.iterate self (m.values.length + 1) ⟨0, some self⟩ = .ok (some vs) ∧
      vs.length = m.values.length ∧ ∀ k < m.values.length, ∃ v, vs[k]? = some v ∧ m.get k = .ok v := by
  refine ⟨m.values, ?_, rfl, ?_⟩
  · have := iterate_spec m self hm m.values.length 0 (by omega)
    simpa using this
  · intro k hk
    refine ⟨m.values[k], List.getElem?_eq_getElem hk, ?_⟩
    simp only [EnumMap.get]
    rw [if_neg (by omega), checkIndex_nat hm hk]
    simp [List.getElem?_eq_getElem hk]

/-- Iterators of the same map are ordered by position, others can't be compared. -/
theorem C18_compare (a b : MapIter) :
    (a.map = b.map → a.eq b = .ok (decide (a.idx = b.idx)) ∧ a.lt b = .ok (decide (a.idx < b.idx)) ∧
      a.le b = .ok (decide (a.idx ≤ b.idx)) ∧ a.gt b = .ok (decide (a.idx > b.idx)) ∧
      a.ge b = .ok (decide (a.idx ≥ b.idx)) ∧ a.diff b = .ok ((a.idx : Int) - b.idx)) ∧
    (a.map ≠ b.map → a.eq b = .throw .domain ∧ a.lt b = .throw .domain ∧ a.le b = .throw .domain ∧
      a.gt b = .throw .domain ∧ a.ge b = .throw .domain ∧ a.diff b = .throw .domain) := by
  constructor
  · intro h
    have hle : a.le b = .ok (decide (a.idx ≤ b.idx)) := by
      simp only [MapIter.le, MapIter.lt, MapIter.eq, h, if_true, Res.bind_ok]
      by_cases h1 : a.idx < b.idx
      · simp [h1]; omega
      · simp only [h1, decide_false, Bool.false_eq_true, if_false]
        congr 1
        by_cases h2 : a.idx = b.idx
        · simp [h2]
        · have : ¬ a.idx ≤ b.idx := by omega
          simp [h2, this]
    refine ⟨?_, ?_, hle, ?_, ?_, ?_⟩
    · simp only [MapIter.eq, h, if_true]
      congr 1
    · simp [MapIter.lt, h]
    · simp only [MapIter.gt, hle, Res.bind_ok]
      congr 1
      by_cases h1 : a.idx ≤ b.idx
      · have : ¬ a.idx > b.idx := by omega
        simp [h1]
      · simp [h1]; omega
    · simp only [MapIter.ge, MapIter.lt, h, if_true, Res.bind_ok]
      congr 1
      by_cases h1 : a.idx < b.idx
      · simp [h1]
      · simp [h1]; omega
    · simp [MapIter.diff, h]
  · intro h
    simp [MapIter.eq, MapIter.lt, MapIter.le, MapIter.gt, MapIter.ge, MapIter.diff, h]

example : ∃ m, (EnumMap.new 3 : EnumMap Nat).run [(0, 5), (2, 7), (3, 9), (0, 6)] = .ok m ∧
    m.get 0 = .ok 6 ∧ m.get 1 = .ok 0 ∧ m.get 2 = .ok 7 ∧ m.get 3 = .ok 0 := by
  exact ⟨_, rfl, by decide, by decide, by decide, by decide⟩

end KT
