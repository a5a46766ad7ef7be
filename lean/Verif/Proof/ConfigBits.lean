import Verif.Model.Config
import Verif.Model.Attr
/-!
# The packed configuration word, bit by bit
-/
namespace Perf
namespace ConfigFlags

theorem bit_READ_FORMAT (i : Nat) : READ_FORMAT.getLsbD i = decide (i < 6) := by
  by_cases h : i < 64
  · have : ∀ i : Fin 64, READ_FORMAT.getLsbD i = decide (i.val < 6) := by decide
    exact this ⟨i, h⟩
  · rw [BitVec.getLsbD_of_ge _ _ (by omega)]; simp; omega

theorem bit_SAMPLE_TYPE (i : Nat) : SAMPLE_TYPE.getLsbD i = decide (6 ≤ i ∧ i < 46) := by
  by_cases h : i < 64
  · have : ∀ i : Fin 64, SAMPLE_TYPE.getLsbD i = decide (6 ≤ i.val ∧ i.val < 46) := by decide
    exact this ⟨i, h⟩
  · rw [BitVec.getLsbD_of_ge _ _ (by omega)]; simp; omega

theorem bit_MISC (i : Nat) : MISC.getLsbD i = decide (48 ≤ i ∧ i < 64) := by
  by_cases h : i < 64
  · have : ∀ i : Fin 64, MISC.getLsbD i = decide (48 ≤ i.val ∧ i.val < 64) := by decide
    exact this ⟨i, h⟩
  · rw [BitVec.getLsbD_of_ge _ _ (by omega)]; simp; omega

theorem bit_readFormat (f : U64) (i : Nat) : (readFormat f).getLsbD i = (f.getLsbD i && decide (i < 6)) := by
  unfold readFormat
  rw [BitVec.getLsbD_ushiftRight, Nat.zero_add, BitVec.getLsbD_and, bit_READ_FORMAT]

theorem bit_sampleType (f : U64) (i : Nat) : (sampleType f).getLsbD i = (f.getLsbD (6 + i) && decide (i < 40)) := by
  unfold sampleType
  rw [BitVec.getLsbD_ushiftRight, BitVec.getLsbD_and, bit_SAMPLE_TYPE]
  show (f.getLsbD (6 + i) && decide (6 ≤ 6 + i ∧ 6 + i < 46)) = _
  congr 1
  rw [decide_eq_decide]
  omega

theorem bit_misc (f : U64) (i : Nat) : (misc f).getLsbD i = (f.getLsbD (48 + i) && decide (i < 16)) := by
  unfold misc
  rw [BitVec.getLsbD_setWidth, BitVec.getLsbD_ushiftRight, BitVec.getLsbD_and, bit_MISC]
  show (decide (i < 16) && (f.getLsbD (48 + i) && decide (48 ≤ 48 + i ∧ 48 + i < 64))) = _
  by_cases h : i < 16
  · have : 48 ≤ 48 + i ∧ 48 + i < 64 := by omega
    simp only [h, this, decide_true, Bool.true_and, Bool.and_true, and_self]
  · simp [h]

theorem contains_one (f : U64) (i : Nat) (h : i < 64) : contains f (1#64 <<< i) = f.getLsbD i := by
  unfold contains
  rw [show (1#64 <<< i : U64) = BitVec.twoPow 64 i from rfl, BitVec.and_twoPow]
  cases f.getLsbD i with
  | true => simp
  | false =>
    simp only [Bool.false_eq_true, if_false, beq_eq_false_iff_ne, ne_eq]
    intro he
    have := congrArg (fun y => y.getLsbD i) he
    simp [h] at this

theorem bit_sampleIdAll (f : U64) : sampleIdAll f = f.getLsbD 46 := contains_one f 46 (by omega)
theorem bit_branchHwIndex (f : U64) : branchHwIndex f = f.getLsbD 47 := contains_one f 47 (by omega)

theorem bit_setMisc (f : U64) (m : U16) (i : Nat) :
    (setMisc f m).getLsbD i = if i < 48 then f.getLsbD i else m.getLsbD (i - 48) := by
  unfold setMisc
  rw [BitVec.getLsbD_or, BitVec.getLsbD_and, BitVec.getLsbD_not, bit_MISC, BitVec.getLsbD_shiftLeft,
    BitVec.getLsbD_setWidth]
  show (f.getLsbD i && (decide (i < 64) && !decide (48 ≤ i ∧ i < 64)) ||
    decide (i < 64) && !decide (i < 48) && (decide (i - 48 < 64) && m.getLsbD (i - 48))) = _
  by_cases h : i < 48
  · have h1 : i < 64 := by omega
    have h2 : ¬ (48 ≤ i ∧ i < 64) := by omega
    simp [h, h1]
  · by_cases h1 : i < 64
    · have h2 : 48 ≤ i ∧ i < 64 := by omega
      have h3 : i - 48 < 64 := by omega
      simp [h, h1, h2.1, h3]
    · have h3 : m.getLsbD (i - 48) = false := BitVec.getLsbD_of_ge _ _ (by omega)
      simp [h, h1, h3]

theorem bit_setSampleType (f s : U64) (i : Nat) :
    (setSampleType f s).getLsbD i = if 6 ≤ i ∧ i < 46 then s.getLsbD (i - 6) else f.getLsbD i := by
  unfold setSampleType
  rw [BitVec.getLsbD_or, BitVec.getLsbD_and, BitVec.getLsbD_not, bit_SAMPLE_TYPE, BitVec.getLsbD_and,
    BitVec.getLsbD_shiftLeft, bit_SAMPLE_TYPE]
  show (f.getLsbD i && (decide (i < 64) && !decide (6 ≤ i ∧ i < 46)) ||
    (decide (i < 64) && !decide (i < 6) && s.getLsbD (i - 6)) && decide (6 ≤ i ∧ i < 46)) = _
  by_cases h : 6 ≤ i ∧ i < 46
  · have h1 : i < 64 := by omega
    have h2 : ¬ i < 6 := by omega
    simp only [h, h1, h2, and_self, decide_true, decide_false, Bool.not_true, Bool.not_false, Bool.and_false, Bool.and_true,
      Bool.true_and, Bool.false_or, if_true]
  · by_cases h1 : i < 64
    · simp only [h, h1, decide_true, decide_false, Bool.not_false, Bool.and_true, Bool.and_false, Bool.or_false, if_false]
    · have h3 : f.getLsbD i = false := BitVec.getLsbD_of_ge _ _ (by omega)
      simp only [h, h1, h3, decide_false, Bool.false_and, Bool.and_false, Bool.or_false, if_false]

theorem bit_setReadFormat (f r : U64) (i : Nat) :
    (setReadFormat f r).getLsbD i =
      if i < 6 then r.getLsbD i || (decide (i = 5) && decide (r >>> 6 ≠ 0#64)) else f.getLsbD i := by
  unfold setReadFormat
  rw [BitVec.getLsbD_or, BitVec.getLsbD_or, BitVec.getLsbD_and, BitVec.getLsbD_not, bit_READ_FORMAT, BitVec.getLsbD_and,
    BitVec.getLsbD_shiftLeft, bit_READ_FORMAT, BitVec.getLsbD_shiftLeft]
  show ((f.getLsbD i && (decide (i < 64) && !decide (i < 6)) ||
    (decide (i < 64) && !decide (i < 0) && r.getLsbD (i - 0)) && decide (i < 6)) ||
    (decide (i < 64) && !decide (i < 5) && (if r >>> 6 ≠ 0#64 then 1#64 else 0#64).getLsbD (i - 5))) = _
  have hb : ∀ (c : Prop) [Decidable c] (j : Nat), (if c then 1#64 else 0#64).getLsbD j = (decide c && decide (j = 0)) := by
    intro c _ j
    by_cases hc : c
    · by_cases hj : j = 0
      · subst hj; simp [hc]
      · have : (1#64).getLsbD j = false := by
          by_cases h64 : j < 64
          · have : ∀ j : Fin 64, j.val ≠ 0 → (1#64).getLsbD j = false := by decide
            exact this ⟨j, h64⟩ hj
          · exact BitVec.getLsbD_of_ge _ _ (by omega)
        rw [if_pos hc, this]; simp [hj]
    · simp [hc]
  rw [hb]
  by_cases h : i < 6
  · have h1 : i < 64 := by omega
    rw [if_pos h]
    by_cases h5 : i = 5
    · subst h5; simp
    · have h6 : i < 5 := by omega
      simp only [h, h1, h5, h6, Nat.not_lt_zero, decide_true, decide_false, Bool.not_true, Bool.not_false, Bool.and_true,
        Bool.and_false, Bool.false_and, Bool.true_and, Bool.or_false, Bool.false_or, Nat.sub_zero]
  · rw [if_neg h]
    have h5 : ¬ i - 5 = 0 := by omega
    by_cases h1 : i < 64
    · simp only [h, h1, h5, decide_true, decide_false, Bool.not_false, Bool.and_true, Bool.and_false, Bool.or_false]
    · have h3 : f.getLsbD i = false := BitVec.getLsbD_of_ge _ _ (by omega)
      simp only [h, h1, h3, decide_false, Bool.false_and, Bool.and_false, Bool.or_false]

theorem bit_bool (c : Bool) (k i : Nat) :
    ((if c then 1#64 else 0#64) <<< k : U64).getLsbD i = (c && decide (i = k ∧ i < 64)) := by
  rw [BitVec.getLsbD_shiftLeft]
  cases c with
  | false => simp
  | true =>
    have h1 : ∀ j : Nat, (1#64).getLsbD j = decide (j = 0) := by
      intro j
      by_cases h64 : j < 64
      · have : ∀ j : Fin 64, (1#64).getLsbD j = decide (j.val = 0) := by decide
        exact this ⟨j, h64⟩
      · rw [BitVec.getLsbD_of_ge _ _ (by omega)]; simp; omega
    simp only [if_true, h1, Bool.true_and]
    by_cases h : i < 64 <;> by_cases h' : i < k <;> simp [h, h'] <;> omega

theorem bit_new (rf st : U64) (sia bhi : Bool) (m : U16) (i : Nat) :
    (new rf st sia bhi m).getLsbD i =
      if i < 6 then rf.getLsbD i || (decide (i = 5) && decide (rf >>> 6 ≠ 0#64))
      else if i < 46 then st.getLsbD (i - 6)
      else if i = 46 then sia else if i = 47 then bhi else m.getLsbD (i - 48) := by
  unfold new
  rw [bit_setMisc, bit_setSampleType, bit_setReadFormat]
  by_cases h6 : i < 6
  · have h1 : i < 48 := by omega
    have h2 : ¬ (6 ≤ i ∧ i < 46) := by omega
    rw [if_pos h1, if_neg h2, if_pos h6, if_pos h6]
  by_cases h46 : i < 46
  · have h1 : i < 48 := by omega
    have h2 : (6 ≤ i ∧ i < 46) := by omega
    rw [if_pos h1, if_pos h2, if_neg h6, if_pos h46]
  by_cases h48 : i < 48
  · have h2 : ¬ (6 ≤ i ∧ i < 46) := by omega
    rw [if_pos h48, if_neg h2, if_neg h6, if_neg h6, if_neg h46]
    rw [BitVec.getLsbD_or, BitVec.getLsbD_or, BitVec.getLsbD_or, bit_bool, bit_bool, BitVec.getLsbD_shiftLeft]
    have hs : SAMPLE_ID_ALL_OFFSET = 46 := rfl
    have hb : BRANCH_HW_INDEX_OFFSET = 47 := rfl
    have hm : MISC_OFFSET = 48 := rfl
    rw [hs, hb, hm]
    have h7 : i = 46 ∨ i = 47 := by omega
    rcases h7 with h7 | h7 <;> subst h7 <;> simp
  · have h7 : ¬ i = 46 := by omega
    have h8 : ¬ i = 47 := by omega
    rw [if_neg h48, if_neg h6, if_neg h46, if_neg h7, if_neg h8]

end ConfigFlags

/-! ## Changing `misc` -/
namespace ParseConfig
open ConfigFlags
variable (c : ParseConfig) (m : U16)

theorem withMisc_sampleType : (c.withMisc m).sampleType = c.sampleType := by
  apply BitVec.eq_of_getLsbD_eq
  intro i hi
  show (ConfigFlags.sampleType (setMisc _ m)).getLsbD i = (ConfigFlags.sampleType _).getLsbD i
  rw [bit_sampleType, bit_sampleType, bit_setMisc]
  by_cases h : i < 40
  · rw [if_pos (by omega)]
  · simp [h]

theorem withMisc_readFormat : (c.withMisc m).readFormat = c.readFormat := by
  apply BitVec.eq_of_getLsbD_eq
  intro i hi
  show (ConfigFlags.readFormat (setMisc _ m)).getLsbD i = (ConfigFlags.readFormat _).getLsbD i
  rw [bit_readFormat, bit_readFormat, bit_setMisc]
  by_cases h : i < 6
  · rw [if_pos (by omega)]
  · simp [h]

theorem withMisc_sampleIdAll : (c.withMisc m).sampleIdAll = c.sampleIdAll := by
  show ConfigFlags.sampleIdAll (setMisc _ m) = ConfigFlags.sampleIdAll _
  rw [bit_sampleIdAll, bit_sampleIdAll, bit_setMisc, if_pos (by omega)]

theorem withMisc_branchHwIndex : (c.withMisc m).branchHwIndex = c.branchHwIndex := by
  show ConfigFlags.branchHwIndex (setMisc _ m) = ConfigFlags.branchHwIndex _
  rw [bit_branchHwIndex, bit_branchHwIndex, bit_setMisc, if_pos (by omega)]

theorem withMisc_misc : (c.withMisc m).misc = m := by
  apply BitVec.eq_of_getLsbD_eq
  intro i hi
  show (ConfigFlags.misc (setMisc _ m)).getLsbD i = m.getLsbD i
  rw [bit_misc, bit_setMisc, if_neg (by omega)]
  simp [hi]

end ParseConfig
theorem misc_bit (x : U16) (i : Nat) (m : U16) (hm : m = BitVec.twoPow 16 i) (h : i < 16) :
    (x &&& m ≠ 0#16) ↔ x.getLsbD i = true := by
  rw [hm, BitVec.and_twoPow]
  cases x.getLsbD i with
  | false => simp
  | true =>
    simp only [if_true, iff_true]
    intro he
    have := congrArg (fun y => y.getLsbD i) he
    simp [h] at this

end Perf
