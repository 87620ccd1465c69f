import Verif.Model.Enum
/-! # Helper lemmas about enum containers -/
namespace KT

theorem toSize_lt (i : Int) : toSize i < 256 := by unfold toSize; omega
theorem toSize_of_lt {k : Nat} (h : k < 256) : toSize k = k := by unfold toSize; omega

theorem checkIndex_nat {n k : Nat} (hn : n ≤ 255) (hk : k < n) : checkIndex n k = .ok k := by
  have : toSize (k : Int) = k := toSize_of_lt (by omega)
  simp [checkIndex, this]; omega

theorem iterApply_le {n idx : Nat} (hn : n ≤ 255) (h : idx ≤ n) (op : IterOp) {j : Nat}
    (ha : op.apply n idx = .ok j) : j ≤ n := by
  cases op with
  | inc =>
    simp only [IterOp.apply, iterInc] at ha
    split at ha
    · simp at ha
    · simp at ha; rw [← ha]; unfold toSize; omega
  | dec =>
    simp only [IterOp.apply, iterDec] at ha
    split at ha
    · simp at ha
    · simp at ha; rw [← ha]; unfold toSize; omega
  | add i =>
    simp only [IterOp.apply, iterAdd] at ha
    split at ha
    · simp at ha
    · split at ha
      · simp at ha
      · split at ha
        · simp at ha
        · simp at ha; omega
  | sub i =>
    simp only [IterOp.apply, iterSub, iterAdd] at ha
    split at ha
    · simp at ha
    · split at ha
      · simp at ha
      · split at ha
        · simp at ha
        · split at ha
          · simp at ha
          · simp at ha; omega

theorem runIter_le {n : Nat} (hn : n ≤ 255) (ops : List IterOp) :
    ∀ {idx j : Nat}, idx ≤ n → runIter n idx ops = .ok j → j ≤ n := by
  induction ops with
  | nil => intro idx j h hr; simp [runIter] at hr; omega
  | cons op ops ih =>
    intro idx j h hr
    simp only [runIter] at hr
    split at hr
    · rename_i k hk; exact ih (iterApply_le hn h op hk) hr
    · exact ih h hr
    · simp at hr

/-! ## names -/

theorem lookup_isSome_iff (l : List (Str × Nat)) (x : Str) :
    (l.lookup x).isSome = true ↔ x ∈ l.map Prod.fst := by
  induction l with
  | nil => simp
  | cons p l ih =>
    rw [List.lookup_cons]
    by_cases h : x = p.1
    · subst h; simp
    · have : (x == p.1) = false := by simpa using h
      simp [this, ih, h]

/-- What the constructors have stored after the names `args` at the end of the list. -/
structure CtorInv (n : Nat) (args : List Str) (st : EnumNames) : Prop where
  len : st.names.length = n
  keys : st.nameMap.map Prod.fst = args
  vals : ∀ i s, args[i]? = some s →
    st.names[n - args.length + i]? = some s ∧ st.nameMap.lookup s = some (n - args.length + i)
  nodup : args.Nodup

theorem enumCtor_spec (wn : Bool) (n : Nat) (args : List Str) (hl : args.length ≤ n) :
    (args.Nodup ∧ (wn = true → noneName ∉ args) ∧
      ∃ st, enumCtor wn n args = .ok st ∧ CtorInv n args st) ∨
    (¬ (args.Nodup ∧ (wn = true → noneName ∉ args)) ∧ enumCtor wn n args = .throw .domain) := by
  induction args with
  | nil =>
    left
    refine ⟨by simp, by simp, _, rfl, ⟨by simp, by simp, by simp, by simp⟩⟩
  | cons name args ih =>
    simp only [List.length_cons] at hl
    rcases ih (by omega) with ⟨hnd, hnn, st, hst, inv⟩ | ⟨hbad, ht⟩
    · simp only [enumCtor, hst, Res.bind_ok, setName]
      by_cases hN : (wn && name == noneName) = true
      · right
        rw [if_pos hN]
        simp at hN
        exact ⟨fun h => h.2 hN.1 (by simp [hN.2]), rfl⟩
      · rw [if_neg hN]
        have hi : n - 1 - args.length < st.names.length := by rw [inv.len]; omega
        rw [if_pos hi]
        by_cases hd : (st.nameMap.lookup name).isSome = true
        · right
          rw [if_pos hd]
          rw [lookup_isSome_iff, inv.keys] at hd
          exact ⟨fun h => (List.nodup_cons.mp h.1).1 hd, rfl⟩
        · left
          rw [if_neg hd]
          rw [lookup_isSome_iff, inv.keys] at hd
          refine ⟨List.nodup_cons.mpr ⟨hd, hnd⟩, ?_, _, rfl, ?_⟩
          · intro hw
            simp only [List.mem_cons, not_or]
            refine ⟨?_, hnn hw⟩
            intro he
            apply hN
            simp [hw, he]
          · refine ⟨?_, ?_, ?_, List.nodup_cons.mpr ⟨hd, hnd⟩⟩
            · simp [inv.len]
            · simp [inv.keys]
            · intro i s hs
              cases i with
              | zero =>
                simp at hs
                subst hs
                simp only [List.length_cons, Nat.add_zero]
                have : n - (args.length + 1) = n - 1 - args.length := by omega
                rw [this]
                refine ⟨?_, ?_⟩
                · rw [List.getElem?_set_self hi]
                · simp [List.lookup]
              | succ i =>
                simp only [List.getElem?_cons_succ] at hs
                obtain ⟨h1, h2⟩ := inv.vals i s hs
                simp only [List.length_cons]
                have : n - (args.length + 1) + (i + 1) = n - args.length + i := by omega
                rw [this]
                refine ⟨?_, ?_⟩
                · rw [List.getElem?_set_ne (by omega)]; exact h1
                · have hne : s ≠ name := by
                    rintro rfl
                    exact hd (List.mem_of_getElem? hs)
                  have : (s == name) = false := by simpa using hne
                  rw [List.lookup_cons, this]; exact h2
    · right
      refine ⟨fun h => hbad ⟨(List.nodup_cons.mp h.1).2, fun hw => ?_⟩, ?_⟩
      · have := h.2 hw; simp at this; exact this.2
      · simp [enumCtor, ht]

theorem enumCreate_spec {wn : Bool} {names : List Str} {l : EnumNames}
    (h : enumCreate wn false names = .ok l) :
    l.names = names ∧ l.nameMap.map Prod.fst = names ∧ names.Nodup ∧
      (wn = true → noneName ∉ names) ∧
      ∀ i s, names[i]? = some s → l.nameMap.lookup s = some i := by
  simp only [enumCreate, Bool.false_eq_true, if_false] at h
  rcases enumCtor_spec wn names.length names (Nat.le_refl _) with ⟨hn, hw, st, hst, inv⟩ | ⟨_, ht⟩
  · rw [hst] at h
    simp at h
    subst h
    refine ⟨?_, inv.keys, hn, hw, ?_⟩
    · apply List.ext_getElem?
      intro i
      by_cases hi : i < names.length
      · have := (inv.vals i names[i] (List.getElem?_eq_getElem hi)).1
        simp at this
        rw [this, List.getElem?_eq_getElem hi]
      · rw [List.getElem?_eq_none (by rw [inv.len]; omega), List.getElem?_eq_none (by omega)]
    · intro i s hs
      have := (inv.vals i s hs).2
      simpa using this
  · rw [ht] at h; simp at h

/-! ## maps -/

theorem put_ok {V : Type} {m : EnumMap V} {k : Nat} (hn : m.values.length ≤ 255)
    (hk : k < m.values.length) (v : V) : m.put k v = .ok ⟨m.values.set k v⟩ := by
  simp [EnumMap.put, checkIndex_nat hn hk, hk]

theorem checkIndex_bad {n k : Nat} (hk : n ≤ k) (hb : k < 256) : checkIndex n k = .throw .range := by
  have : toSize (k : Int) = k := toSize_of_lt hb
  simp [checkIndex, this]; omega

end KT
