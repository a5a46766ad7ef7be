import Verif.Proof.Utf8
import Verif.Model.OptionStruct
import Verif.Spec.View
/-!
# C41, C42, C43, C44, C46, C56: properties of values

`Cow` slices, structs of optional fields, printing, errors, `into_owned`.
-/
namespace Perf

/-! ## C41 -/

/-- What `split_at` on a slice does: the two pieces, or a panic (`none`) when the index is out of range. -/
def sliceSplitAt {α : Type} (d : List α) (len : Nat) : Option (List α × List α) :=
  if len ≤ d.length then some (d.take len, d.drop len) else none

/-- **C41** for borrowed data, and for owned data except when one piece is empty and the other is not. Full statement:
without the second hypothesis; false by `c41_owned_false`. -/
theorem c41_split_partial {α : Type} (c : Cow α) (len : Nat)
    (h : ∀ d, c = .owned d → d = [] ∨ (len ≠ 0 ∧ len ≠ d.length)) :
    (c.splitAt len).map (fun x => (x.1.data, x.2.data)) = sliceSplitAt c.data len := by
  cases c with
  | borrowed d =>
    show (if len ≤ d.length then _ else none : Option (Cow α × Cow α)).map _ = if len ≤ d.length then _ else none
    by_cases h : len ≤ d.length
    · rw [if_pos h, if_pos h]; rfl
    · rw [if_neg h, if_neg h]; rfl
  | owned d =>
    rcases h d rfl with rfl | ⟨h0, h1⟩
    · by_cases h : len = 0
      · subst h; rfl
      · simp [Cow.splitAt, sliceSplitAt, Cow.data, h]
    · simp only [Cow.splitAt, if_neg h0, if_neg h1]
      show (if len ≤ d.length then _ else none : Option (Cow α × Cow α)).map _ = if len ≤ d.length then _ else none
      by_cases h : len ≤ d.length
      · rw [if_pos h, if_pos h]; rfl
      · rw [if_neg h, if_neg h]; rfl

example : (Cow.owned [1, 2, 3]).splitAt 1 = some (.owned [1], .owned [2, 3]) ∧ (Cow.borrowed [1, 2, 3]).splitAt 3 = some (.borrowed [1, 2, 3], .borrowed []) ∧
    (Cow.owned [1, 2, 3]).splitAt 4 = none := by decide

/-- **C41** is false exactly for owned nonempty data split at 0 or at its length: the pieces come out swapped. -/
theorem c41_owned_false {α : Type} (d : List α) (h : d ≠ []) :
    ((Cow.owned d).splitAt 0).map (fun x => (x.1.data, x.2.data)) = some (d, []) ∧ sliceSplitAt d 0 = some ([], d) ∧
    ((Cow.owned d).splitAt d.length).map (fun x => (x.1.data, x.2.data)) = some ([], d) ∧ sliceSplitAt d d.length = some (d, []) := by
  have : d.length ≠ 0 := fun h0 => h (List.length_eq_zero_iff.1 h0)
  simp [Cow.splitAt, Cow.data, sliceSplitAt, this]

/-- The split neither copies borrowed data nor hands out owned data as borrowed (an empty piece aside). -/
theorem c41_kept {α : Type} (c x y : Cow α) (len : Nat) (h : c.splitAt len = some (x, y)) :
    (∀ d, c = .borrowed d → (∃ a, x = .borrowed a) ∧ ∃ b, y = .borrowed b) ∧
    (∀ d, c = .owned d → (x = .borrowed [] ∨ ∃ a, x = .owned a) ∧ (y = .borrowed [] ∨ ∃ b, y = .owned b)) := by
  cases c with
  | borrowed d =>
    refine ⟨fun _ _ => ?_, nofun⟩
    simp only [Cow.splitAt] at h
    split at h <;> cases h
    exact ⟨⟨_, rfl⟩, _, rfl⟩
  | owned d =>
    refine ⟨nofun, fun _ _ => ?_⟩
    simp only [Cow.splitAt] at h
    split at h
    · cases h; exact ⟨.inr ⟨_, rfl⟩, .inl rfl⟩
    · split at h
      · cases h; exact ⟨.inl rfl, .inr ⟨_, rfl⟩⟩
      · split at h <;> cases h
        exact ⟨.inr ⟨_, rfl⟩, .inr ⟨_, rfl⟩⟩

/-- **C41** Truncating keeps the first `len` elements (all of them if there are fewer), and keeps the variant. -/
theorem c41_truncate {α : Type} (c : Cow α) (len : Nat) :
    (c.truncate len).data = c.data.take len ∧
    ((∃ d, c = .borrowed d) ↔ ∃ d, c.truncate len = .borrowed d) := by
  cases c with
  | borrowed d =>
    by_cases h : d.length < len
    · rw [show (Cow.borrowed d).truncate len = .borrowed d from if_pos h]
      exact ⟨(List.take_of_length_le (by show d.length ≤ len; omega)).symm, by simp⟩
    · rw [show (Cow.borrowed d).truncate len = .borrowed (d.take len) from if_neg h]
      exact ⟨rfl, by simp⟩
  | owned d => exact ⟨rfl, by simp [Cow.truncate]⟩

example : (Cow.borrowed [1, 2, 3]).truncate 2 = .borrowed [1, 2] ∧ (Cow.borrowed [1, 2, 3]).truncate 9 = .borrowed [1, 2, 3] ∧
    (Cow.owned [1, 2, 3]).truncate 2 = .owned [1, 2] := by decide

/-! ## C42 -/
namespace OptionStruct
variable {w n : Nat} {F : Fin n → Type}

theorem testBit_flagsUpTo (o : (i : Fin n) → Option (F i)) (i : Nat) (hi : i < w) : ∀ k,
    (flagsUpTo w o k).getLsbD i = (decide (i < k) && (if h : i < n then (o ⟨i, h⟩).isSome else false)) := by
  intro k
  induction k with
  | zero => simp [flagsUpTo]
  | succ k ih =>
    simp only [flagsUpTo]
    by_cases hk : k < n
    · rw [dif_pos hk]
      have hbit : (bit w k).getLsbD i = decide (i = k) := by
        simp only [bit, BitVec.getLsbD_shiftLeft, hi, decide_true, Bool.true_and]
        by_cases h1 : i < k
        · simp [h1]; omega
        · by_cases h2 : i = k
          · subst h2; simp; omega
          · simp [h1, h2, BitVec.getLsbD_one]; omega
      by_cases hs : (o ⟨k, hk⟩).isSome
      · rw [if_pos hs, BitVec.getLsbD_or, ih, hbit]
        by_cases h1 : i = k
        · subst h1; simp [hk, hs]
        · have : decide (i < k + 1) = decide (i < k) := by rw [decide_eq_decide]; omega
          rw [this]; simp [h1]
      · rw [if_neg hs, ih]
        by_cases h1 : i = k
        · subst h1; simp [hk]; simpa using hs
        · have : decide (i < k + 1) = decide (i < k) := by rw [decide_eq_decide]; omega
          rw [this]
    · rw [dif_neg hk, ih]
      by_cases hin : i < n
      · have : decide (i < k + 1) = decide (i < k) := by rw [decide_eq_decide]; omega
        rw [this]
      · simp [hin]

theorem isSet_iff (s : OptionStruct w F) (i : Fin n) (hi : i.val < w) : s.isSet i = s.flags.getLsbD i := by
  unfold isSet
  have hbit : ∀ j, (s.flags &&& bit w i).getLsbD j = (s.flags.getLsbD i && decide (j = i.val)) := by
    intro j
    rw [BitVec.getLsbD_and]
    simp only [bit, BitVec.getLsbD_shiftLeft]
    by_cases h2 : j = i.val
    · subst h2; simp [hi]; omega
    · by_cases h1 : j < i.val
      · simp [h1, h2]
      · simp [h1, h2, BitVec.getLsbD_one]; omega
  cases hb : s.flags.getLsbD i with
  | true =>
    rw [bne_iff_ne]
    intro h0
    have := hbit i
    rw [h0, hb] at this
    simp at this
  | false =>
    have : s.flags &&& bit w i = 0#w := by
      refine BitVec.eq_of_getLsbD_eq fun j hj => ?_
      rw [hbit, hb]; simp
    rw [this]; simp

/-- The flags written by `new` say exactly which fields are initialised. -/
theorem isSet_new (hw : n < w) (o : (i : Fin n) → Option (F i)) (i : Fin n) : (new w o).isSet i = (o i).isSome := by
  have hi : i.val < w := by have := i.isLt; omega
  rw [isSet_iff _ _ hi]
  show (flagsUpTo w o n).getLsbD i = _
  rw [testBit_flagsUpTo o i hi n]
  simp [i.isLt]

/-- Only initialised cells are marked. -/
def Sound (s : OptionStruct w F) : Prop := ∀ i, s.isSet i = true → (s.cells i).isSome = true

theorem drop_spec {s : OptionStruct w F} (h : s.Sound) (l : List (Fin n)) : s.dropFrom l = some (l.filter s.isSet) := by
  induction l with
  | nil => rfl
  | cons i l ih =>
    rw [dropFrom, List.filter_cons]
    split
    · rename_i hs
      obtain ⟨v, hv⟩ := Option.isSome_iff_exists.1 (h i hs)
      rw [hv, ih]
      rfl
    · exact ih

end OptionStruct
open OptionStruct in
/-- **C42** For any number of fields (fewer than the flag word has bits, as the macro asserts) of any types: after `new`, every
accessor returns what the field was constructed with; so does every accessor of a clone; dropping either drops exactly the
initialised fields, each once; none of this reads or drops an uninitialised cell (outcome `none` of the model). -/
theorem c42_new {w n : Nat} {F : Fin n → Type} (hw : n < w) (o : (i : Fin n) → Option (F i)) :
    (∀ i, (new w o).get i = some (o i)) ∧
    (∀ i, (new w o).clone.get i = some (o i)) ∧
    (∃ l, (new w o).drop = some l ∧ l.Nodup ∧ ∀ i, i ∈ l ↔ (o i).isSome) ∧
    (∃ l, (new w o).clone.drop = some l ∧ l.Nodup ∧ ∀ i, i ∈ l ↔ (o i).isSome) := by
  have hget : ∀ o : (i : Fin n) → Option (F i), ∀ i, (new w o).get i = some (o i) := by
    intro o i
    unfold OptionStruct.get
    rw [isSet_new hw]
    show (if (o i).isSome = true then (match o i with | some v => some (some v) | none => none) else some none) = _
    cases o i <;> rfl
  have hclone : (new w o).clone = new w o := by
    unfold clone
    congr 1
    funext i
    rw [hget]
    rfl
  have hdrop : ∃ l, (new w o).drop = some l ∧ l.Nodup ∧ ∀ i, i ∈ l ↔ (o i).isSome := by
    refine ⟨_, drop_spec (fun i hi => by rw [isSet_new hw] at hi; exact hi) _, ?_, ?_⟩
    · exact (List.nodup_finRange n).sublist List.filter_sublist
    · intro i
      simp [isSet_new hw]
  exact ⟨hget o, by rw [hclone]; exact hget o, hdrop, by rw [hclone]; exact hdrop⟩

open OptionStruct in
/-- **C42** The default value has no field, whatever its memory holds; it drops nothing; its clone is the same. -/
theorem c42_default {w n : Nat} {F : Fin n → Type} (hw : n < w) (garbage : (i : Fin n) → Option (F i)) :
    (∀ i, (OptionStruct.default w garbage).get i = some none) ∧ (OptionStruct.default w garbage).drop = some [] ∧
    (∀ i, (OptionStruct.default w garbage).clone.get i = some none) ∧ (OptionStruct.default w garbage).clone.drop = some [] := by
  have h0 : ∀ i, (OptionStruct.default w garbage).isSet i = false := by
    intro i; simp [OptionStruct.isSet, OptionStruct.default]
  have hget : ∀ i, (OptionStruct.default w garbage).get i = some none := by
    intro i; unfold OptionStruct.get; rw [h0]; rfl
  have hc : (OptionStruct.default w garbage).clone = new w (fun _ => none) := by
    unfold clone
    congr 1
    funext i
    rw [hget]; rfl
  have hn := c42_new (F := F) hw (fun _ => none)
  refine ⟨hget, ?_, by rw [hc]; exact hn.1, ?_⟩
  · rw [OptionStruct.drop, drop_spec (fun i hi => by rw [h0] at hi; cases hi)]
    simp [h0]
  · obtain ⟨l, h1, _, h2⟩ := hn.2.2.1
    rw [hc, h1]
    cases l with
    | nil => rfl
    | cons i l => exact absurd ((h2 i).1 (List.mem_cons_self ..)) (by simp)

/-- `SampleId` has 6 fields and a `u8`, `Sample` 25 and a `u32` (src/records/mod.rs:59-66, src/records/sample.rs:25-67). -/
example : 6 < 8 ∧ 25 < 32 := by decide

/-- Three fields, the middle one absent. -/
example : let s := OptionStruct.new 8 (n := 3) (F := fun _ => Nat) (fun i => if i.val = 1 then none else some i.val)
    s.get 0 = some (some 0) ∧ s.get 1 = some none ∧ s.get 2 = some (some 2) ∧ s.drop = some [0, 2] := by decide

/-! ## C43 -/

/-- A hexadecimal digit of either case. -/
def IsHexDigit (c n : Nat) : Prop :=
  (n ≤ 9 ∧ c = 0x30 + n) ∨ (10 ≤ n ∧ n ≤ 15 ∧ (c = 0x41 + (n - 10) ∨ c = 0x61 + (n - 10)))

/-- The text `cs` is `bs` in hexadecimal, two digits per byte, high nibble first. -/
def IsHex : List Byte → List Nat → Prop
  | [], cs => cs = []
  | b :: bs, hi :: lo :: cs => IsHexDigit hi (b.toNat / 16) ∧ IsHexDigit lo (b.toNat % 16) ∧ IsHex bs cs
  | _ :: _, _ => False

theorem hexStr_cons (b : Byte) (bs : List Byte) :
    hexStr (b :: bs) = hexNibble (b.toNat % 16) :: hexNibble (b.toNat / 16) :: hexStr bs := by
  have h1 : (b &&& 0xf#8).toNat = b.toNat % 16 := by
    rw [BitVec.toNat_and]
    exact Nat.and_two_pow_sub_one_eq_mod _ 4
  have h2 : (b >>> 4).toNat = b.toNat / 16 := by
    rw [BitVec.toNat_ushiftRight, Nat.shiftRight_eq_div_pow]
  show hexNibble _ :: hexNibble _ :: hexStr bs = _
  rw [h1, h2]

/-- **C43** holds exactly for build ids all of whose bytes have two equal nibbles below 10 (`00`, `11`, …, `99`): the code
writes the low nibble first and `'A' + n` for `n ≥ 10`. Full statement: `IsHex bs (hexStr bs)` for all `bs`. -/
theorem c43_hex_partial (bs : List Byte) :
    IsHex bs (hexStr bs) ↔ ∀ b ∈ bs, b.toNat / 16 = b.toNat % 16 ∧ b.toNat % 16 ≤ 9 := by
  induction bs with
  | nil => simp [IsHex, hexStr]
  | cons b bs ih =>
    rw [hexStr_cons, IsHex, ih, List.forall_mem_cons, ← and_assoc]
    refine and_congr_left fun _ => ?_
    have hb := b.isLt
    simp only [IsHexDigit, hexNibble]
    split <;> split <;> omega

/-- **C43** is false: `0x1a` prints as `K1`, and `K` is no hexadecimal digit. -/
theorem c43_false : hexStr [0x1a] = ['K'.toNat, '1'.toNat] ∧ ¬ IsHex [0x1a] (hexStr [0x1a]) := by
  refine ⟨by decide, fun h => ?_⟩
  have := (c43_hex_partial _).1 h 0x1a (List.mem_cons_self ..)
  revert this
  decide

/-- What is left of it: two ASCII characters per byte, from which the bytes can be told. -/
theorem c43_injective (xs ys : List Byte) (h : hexStr xs = hexStr ys) : xs = ys ∧ (hexStr xs).length = 2 * xs.length ∧
    ∀ c ∈ hexStr xs, 0x30 ≤ c ∧ c ≤ 0x50 := by
  have inj : ∀ m n, m < 16 → n < 16 → hexNibble m = hexNibble n → m = n := by
    intro m n hm hn h
    unfold hexNibble at h
    split at h <;> split at h <;> omega
  refine ⟨?_, ?_, ?_⟩
  · induction xs generalizing ys with
    | nil => cases ys with
      | nil => rfl
      | cons y ys => rw [hexStr_cons] at h; cases h
    | cons x xs ih => cases ys with
      | nil => rw [hexStr_cons] at h; cases h
      | cons y ys =>
        rw [hexStr_cons, hexStr_cons] at h
        simp only [List.cons.injEq] at h
        have hx := x.isLt
        have hy := y.isLt
        have h1 := inj _ _ (by omega) (by omega) h.1
        have h2 := inj _ _ (by omega) (by omega) h.2.1
        rw [ih _ h.2.2, BitVec.eq_of_toNat_eq (x := x) (y := y) (by omega)]
  · clear h
    induction xs with
    | nil => rfl
    | cons x xs ih => rw [hexStr_cons]; simp [ih]; omega
  · clear h
    induction xs with
    | nil => simp [hexStr]
    | cons x xs ih =>
      rw [hexStr_cons]
      have hx := x.isLt
      have hn : ∀ n, n < 16 → 0x30 ≤ hexNibble n ∧ hexNibble n ≤ 0x50 := by
        intro n hn; unfold hexNibble; split <;> omega
      intro c hc
      simp only [List.mem_cons] at hc
      rcases hc with rfl | rfl | hc
      · exact hn _ (by omega)
      · exact hn _ (by omega)
      · exact ih c hc

/-! ## C44 -/

/-- What a name consists of: characters and bytes that are not part of any. -/
inductive Sym where
  | char (c : Char)
  | bad (b : Byte)

def Sym.bytes : Sym → List Byte
  | .char c => charBytes c
  | .bad b => [b]

/-- Printed form, if `esc` is what `char::escape_debug` writes. An invalid byte is written as `\x` and two hexadecimal digits. -/
def Sym.text (esc : Char → List Nat) : Sym → List Nat
  | .char c => esc c
  | .bad b => '\\'.toNat :: 'x'.toNat :: ((Nat.toDigits 16 b.toNat).map Char.toNat)

/-- The symbols of a name: valid text is taken as text wherever there is some, so a byte is bad only where no character starts. -/
structure Symbols (data : List Byte) (syms : List Sym) : Prop where
  bytes : syms.flatMap Sym.bytes = data
  maximal : ∀ s b t, syms = s ++ .bad b :: t → ∀ (c : Char) tl, (Sym.bad b :: t).flatMap Sym.bytes ≠ charBytes c ++ tl

/-- An invalid byte is at least `0x80`, so it is printed as `\xNN`. -/
theorem escapeAscii_high (b : Byte) (h : 0x80 ≤ b.toNat) (esc : Char → List Nat) : escapeAscii b = (Sym.bad b).text esc := by
  have : ∀ n : Fin 256, 0x80 ≤ n.val → escapeAscii (BitVec.ofNat 8 n.val) = '\\'.toNat :: 'x'.toNat :: ((Nat.toDigits 16 n.val).map Char.toNat) := by
    decide +kernel
  have := this ⟨b.toNat, b.isLt⟩ h
  simpa [Sym.text] using this

theorem byteStrLoop_spec (esc : Char → List Nat) (escText : List Byte → List Nat)
    (hesc : ∀ cs : List Char, escText (cs.flatMap charBytes) = cs.flatMap esc) : ∀ (fuel : Nat) (data : List Byte), data.length < fuel →
    ∃ ps syms, byteStrLoop fuel data = some ps ∧ Symbols data syms ∧
      ps.flatMap (fun p => match p with
        | .text bs => escText bs
        | .byte b => escapeAscii b) = syms.flatMap (Sym.text esc) := by
  intro fuel
  induction fuel with
  | zero => intro data h; omega
  | succ fuel ih =>
    intro data h
    by_cases h0 : data = []
    · exact ⟨[], [], by rw [byteStrLoop, if_pos h0], ⟨by simp [h0], by simp⟩, rfl⟩
    · rw [byteStrLoop, if_neg h0]
      rcases fromUtf8_spec data.length 0 data (Nat.le_refl _) with ⟨h1, cs, h2⟩ | ⟨cs, b, rest, e, h2, h3, h4⟩
      · rw [h1]
        simp only [List.take_length, List.drop_length, List.length_nil, Nat.le_refl, if_true, List.drop_nil, List.take_nil, List.map_nil]
        have hfuel : 0 < fuel := by
          have : 0 < data.length := List.length_pos_iff.2 h0
          omega
        obtain ⟨f, rfl⟩ : ∃ f, fuel = f + 1 := ⟨fuel - 1, by omega⟩
        rw [byteStrLoop, if_pos rfl]
        refine ⟨_, cs.map .char, rfl, ⟨?_, ?_⟩, ?_⟩
        · rw [h2, List.flatMap_map]; rfl
        · intro s b t hs
          have : Sym.bad b ∈ cs.map Sym.char := by rw [hs]; simp
          simp at this
        · simp only [List.append_nil, List.flatMap_cons, List.flatMap_nil, h2, hesc, List.flatMap_map]
          rfl
      · rw [h4]
        simp only [Nat.zero_add]
        obtain ⟨g1, g2, g3, g4⟩ := utf8Step_bad h3
        have hl : data.length - (cs.flatMap charBytes).length = rest.length + 1 := by rw [h2]; simp
        rw [hl]
        have ht : data.take (cs.flatMap charBytes).length = cs.flatMap charBytes := by rw [h2, List.take_left']; rfl
        have hd : data.drop (cs.flatMap charBytes).length = b :: rest := by rw [h2, List.drop_left']; rfl
        rw [ht, hd, if_pos (by simpa using g2)]
        generalize e.getD (rest.length + 1) = k at *
        obtain ⟨k, rfl⟩ : ∃ j, k = j + 1 := ⟨k - 1, by omega⟩
        simp only [Nat.add_sub_cancel, List.drop_succ_cons, List.take_succ_cons] at *
        have hlen := congrArg List.length h2
        simp only [List.length_append, List.length_cons] at hlen
        obtain ⟨ps, syms, i1, i2, i3⟩ := ih (rest.drop k) (by rw [List.length_drop]; omega)
        rw [i1]
        refine ⟨_, cs.map .char ++ .bad b :: ((rest.take k).map .bad ++ syms), rfl, ⟨?_, ?_⟩, ?_⟩
        · rw [List.flatMap_append, List.flatMap_cons, List.flatMap_append, i2.bytes, h2, List.flatMap_map, List.flatMap_map]
          have : ∀ l : List Byte, l.flatMap (Sym.bytes ∘ Sym.bad) = l := by
            intro l; induction l with
            | nil => rfl
            | cons x l ih => rw [List.flatMap_cons, ih]; rfl
          have h' : (rest.take k).flatMap (fun b => Sym.bytes (Sym.bad b)) = rest.take k := this _
          rw [h', List.take_append_drop]
          rfl
        · have hcont : ∀ (l : List Byte), (∀ x ∈ l, isCont x = true) → ∀ s b t, l.map Sym.bad ++ syms = s ++ .bad b :: t →
              ∀ (c : Char) tl, (Sym.bad b :: t).flatMap Sym.bytes ≠ charBytes c ++ tl := by
            intro l
            induction l with
            | nil => intro _ s b t hs; exact i2.maximal s b t hs
            | cons x l ih =>
              intro hx s b t hs c tl
              cases s with
              | nil =>
                simp only [List.map_cons, List.cons_append, List.nil_append, List.cons.injEq, Sym.bad.injEq] at hs
                obtain ⟨rfl, -⟩ := hs
                rw [List.flatMap_cons]
                exact charBytes_not_cont (hx x (List.mem_cons_self ..))
              | cons s0 s =>
                simp only [List.map_cons, List.cons_append, List.cons.injEq] at hs
                exact ih (fun y hy => hx y (List.mem_cons_of_mem _ hy)) s b t hs.2 c tl
          intro s b' t hs c tl
          rcases List.append_eq_append_iff.1 hs with ⟨u, h5, h6⟩ | ⟨u, h5, h6⟩
          · cases u with
            | nil =>
              simp only [List.nil_append, List.cons.injEq, Sym.bad.injEq] at h6
              obtain ⟨rfl, rfl⟩ := h6
              intro hc
              have hrest : (Sym.bad b :: ((rest.take k).map Sym.bad ++ syms)).flatMap Sym.bytes = b :: rest := by
                rw [List.flatMap_cons, List.flatMap_append, i2.bytes, List.flatMap_map]
                have : ∀ l : List Byte, l.flatMap (fun b => Sym.bytes (Sym.bad b)) = l := by
                  intro l; induction l with
                  | nil => rfl
                  | cons x l ih => rw [List.flatMap_cons, ih]; rfl
                rw [this, List.take_append_drop]
                rfl
              rw [hrest] at hc
              rw [utf8Step_complete c hc] at h3
              cases h3
            | cons u0 u =>
              simp only [List.cons_append, List.cons.injEq] at h6
              exact hcont _ g4 u b' t h6.2 c tl
          · cases u with
            | nil =>
              simp only [List.nil_append, List.cons.injEq, Sym.bad.injEq] at h6
              obtain ⟨rfl, rfl⟩ := h6
              intro hc
              have hrest : (Sym.bad b' :: ((rest.take k).map Sym.bad ++ syms)).flatMap Sym.bytes = b' :: rest := by
                rw [List.flatMap_cons, List.flatMap_append, i2.bytes, List.flatMap_map]
                have : ∀ l : List Byte, l.flatMap (fun b => Sym.bytes (Sym.bad b)) = l := by
                  intro l; induction l with
                  | nil => rfl
                  | cons x l ih => rw [List.flatMap_cons, ih]; rfl
                rw [this, List.take_append_drop]
                rfl
              rw [hrest] at hc
              rw [utf8Step_complete c hc] at h3
              cases h3
            | cons u0 u =>
              simp only [List.cons_append, List.cons.injEq] at h6
              have : Sym.bad b' ∈ cs.map Sym.char := by rw [h5, ← h6.1]; simp
              simp at this
        · have hbad : ∀ l : List Byte, (∀ x ∈ l, isCont x = true) → l.flatMap escapeAscii = (l.map Sym.bad).flatMap (Sym.text esc) := by
            intro l hx
            induction l with
            | nil => rfl
            | cons x l ih =>
              have h1 := hx x (List.mem_cons_self ..)
              simp [isCont] at h1
              rw [List.flatMap_cons, List.map_cons, List.flatMap_cons, ih (fun y hy => hx y (List.mem_cons_of_mem _ hy)), escapeAscii_high x h1.1 esc]
          simp only [List.map_cons, List.flatMap_append, List.flatMap_cons, hesc, i3, List.flatMap_map, escapeAscii_high b g3 esc]
          have h' : (rest.take k).flatMap escapeAscii = (rest.take k).flatMap (fun x => Sym.text esc (.bad x)) := by
            rw [hbad _ g4, List.flatMap_map]
          have h'' : (rest.take k).flatMap (fun a => escapeAscii a) = (rest.take k).flatMap (fun x => Sym.text esc (.bad x)) := h'
          simp only [List.cons_append, h'', Sym.text, List.append_assoc]

/-- **C44** For any bytes, `Debug` of a name finishes without a panic and writes, between two quotes, the characters and stray
bytes the name consists of, each once and in order, every one escaped: `esc` for a character (`char::escape_debug`, whose tables
are not modelled; `escText` is its extension to text), `\xNN` for a byte that belongs to no character. -/
theorem c44_name (data : List Byte) (esc : Char → List Nat) (escText : List Byte → List Nat)
    (hesc : ∀ cs : List Char, escText (cs.flatMap charBytes) = cs.flatMap esc) :
    ∃ ps syms, byteStr data = some ps ∧ Symbols data syms ∧
      byteStrRender escText ps = ['"'.toNat] ++ syms.flatMap (Sym.text esc) ++ ['"'.toNat] := by
  obtain ⟨ps, syms, h1, h2, h3⟩ := byteStrLoop_spec esc escText hesc (data.length + 1) data (Nat.lt_succ_self _)
  exact ⟨ps, syms, h1, h2, by
    unfold byteStrRender
    rw [← h3]
    congr 3⟩

/-- The symbols of a name are determined by its bytes, so the statement of `c44_name` leaves no freedom. -/
theorem Symbols.unique {data : List Byte} {s t : List Sym} (hs : Symbols data s) (ht : Symbols data t) : s = t := by
  have inj : ∀ (c d : Char) (x y : List Byte), charBytes c ++ x = charBytes d ++ y → c = d ∧ x = y := by
    intro c d x y h
    rcases hx : charBytes c ++ x with _ | ⟨b, rest⟩
    · rw [List.append_eq_nil_iff] at hx; exact absurd hx.1 (charBytes_ne c)
    · have h1 := utf8Step_complete c hx.symm
      have h2 := utf8Step_complete d (hx.symm.trans h)
      rw [h1] at h2
      injection h2 with h2
      obtain ⟨h3, h4⟩ := List.append_inj h h2
      refine ⟨?_, h4⟩
      have : c.val.toNat = d.val.toNat := by
        have sc := charBytes_cases c
        have sd := charBytes_cases d
        rw [← h3] at sd
        rcases sc with ⟨_, a⟩ | ⟨_, _, a⟩ | ⟨_, _, a⟩ | ⟨_, _, a⟩ <;> rcases sd with ⟨_, b⟩ | ⟨_, _, b⟩ | ⟨_, _, b⟩ | ⟨_, _, b⟩ <;>
          rw [a] at b <;> simp only [List.cons.injEq, reduceCtorEq, and_false, and_true] at b <;> omega
      exact Char.ext (UInt32.toNat_inj.1 this)
  induction s generalizing data t with
  | nil =>
    cases t with
    | nil => rfl
    | cons y t =>
      have := hs.bytes.trans ht.bytes.symm
      rw [List.flatMap_cons, List.flatMap_nil] at this
      have := (List.append_eq_nil_iff.1 this.symm).1
      cases y with
      | char c => exact absurd this (charBytes_ne c)
      | bad b => cases this
  | cons x s ih =>
    have hb := hs.bytes.trans ht.bytes.symm
    cases t with
    | nil =>
      rw [List.flatMap_cons, List.flatMap_nil] at hb
      have := (List.append_eq_nil_iff.1 hb).1
      cases x with
      | char c => exact absurd this (charBytes_ne c)
      | bad b => cases this
    | cons y t =>
      have tail : ∀ {z : Sym} {l : List Sym} {d : List Byte}, Symbols d (z :: l) → Symbols (l.flatMap Sym.bytes) l := by
        intro z l d h
        exact ⟨rfl, fun u b v hu c tl => h.maximal (z :: u) b v (by rw [hu]; rfl) c tl⟩
      rw [List.flatMap_cons, List.flatMap_cons] at hb
      cases x with
      | char c =>
        cases y with
        | char d =>
          obtain ⟨rfl, h⟩ := inj _ _ _ _ hb
          rw [ih (tail hs) (by rw [h]; exact tail ht)]
        | bad b => exact absurd (by rw [List.flatMap_cons]; exact hb.symm) (ht.maximal [] b t rfl c (s.flatMap Sym.bytes))
      | bad b =>
        cases y with
        | char d => exact absurd (by rw [List.flatMap_cons]; exact hb) (hs.maximal [] b s rfl d (t.flatMap Sym.bytes))
        | bad b' =>
          simp only [Sym.bytes, List.cons_append, List.nil_append, List.cons.injEq] at hb
          obtain ⟨rfl, h⟩ := hb
          rw [ih (tail hs) (by rw [h]; exact tail ht)]

/-- Two characters, a stray continuation byte, a truncated sequence. -/
example : byteStr [0x61, 0xc3, 0xa9, 0x80, 0x62, 0xe2, 0x82] =
    some [.text [0x61, 0xc3, 0xa9], .byte 0x80, .text [0x62], .byte 0xe2, .byte 0x82] ∧ charBytes 'é' = [0xc3, 0xa9] := by decide +kernel

/-! ## C46 -/

/-- **C46** Conversion of I/O errors. -/
theorem c46_io (e : IoError) : ((ParseError.ofIo e).kind = .eof ↔ e.unexpectedEof = true) ∧
    ((ParseError.ofIo e).kind = .external ↔ e.unexpectedEof = false) ∧ (ParseError.ofIo e).source = some e.text := by
  unfold ParseError.ofIo ParseError.kind
  cases e.unexpectedEof <;> simp [ParseError.new, ParseError.withKind]

/-- **C46** Conversion of other errors and of messages. -/
theorem c46_other (text : String) (k : ErrorKind) : (ParseError.ofBoxed text).kind = .external ∧ (ParseError.ofBoxed text).source = some text ∧
    (ParseError.new text).kind = .external ∧ (ParseError.new text).source = some text ∧
    (ParseError.custom k text).kind = k ∧ (ParseError.custom k text).source = some text ∧
    (ParseError.fromCode k).kind = k ∧ (ParseError.fromCode k).source = none ∧ (ParseError.eof).kind = .eof ∧
    ∀ e : ParseError, (e.withKind k).kind = k ∧ (e.withKind k).source = e.source :=
  ⟨rfl, rfl, rfl, rfl, rfl, rfl, rfl, rfl, rfl, fun _ => ⟨rfl, rfl⟩⟩

/-- The description of a kind, as documented. -/
def ErrorKind.description : ErrorKind → String
  | .eof => "unexpected EOF during parsing"
  | .invalidRecord => "invalid record"
  | .unsupportedData => "unsupported serialized data"
  | .unsupportedConfig => "unsupported config"
  | .external => "user-provided error"

/-- **C46** What is displayed. Full statement: description, a separator, and the message if there is one. The code has the
separator but no description for external errors, and the description but no separator for all others. -/
theorem c46_display_partial (e : ParseError) : e.display = match e.source with
    | none => e.kind.description
    | some msg => if e.kind = .external then ": " ++ msg else e.kind.description ++ msg := by
  obtain ⟨k, s⟩ := e
  cases s <;> cases k <;> simp [ParseError.display, ParseError.kind, ErrorKind.description]

/-- **C46** is false: no separator, or no description. -/
theorem c46_display_false : (ParseError.custom .invalidRecord "bad size").display = "invalid recordbad size" ∧
    (ParseError.new "disk on fire").display = ": disk on fire" ∧
    ∀ e : ParseError, ∀ sep : String, sep ≠ "" → (∃ m, e.source = some m) → e.kind ≠ .external →
      e.display ≠ e.kind.description ++ sep ++ e.source.getD "" := by
  refine ⟨by decide +kernel, by decide +kernel, ?_⟩
  intro e sep hsep ⟨m, hm⟩ hk h
  rw [c46_display_partial, hm] at h
  simp only [if_neg hk, Option.getD_some] at h
  have h := congrArg (fun s => s.toList.length) h
  simp only [String.toList_append, List.length_append] at h
  refine hsep ?_
  have : sep.toList = [] := List.length_eq_zero_iff.1 (by omega)
  exact String.toList_inj.1 (by rw [this]; rfl)

/-! ## C56 -/

/-- No borrowed data is left. -/
def Cow.IsOwned {α : Type} (c : Cow α) : Prop := ∃ d, c = .owned d

/-- **C56** `into_owned` (`to_owned` for TEXT_POKE) changes the contents of no record that has it, and leaves only owned data. -/
theorem c56_owned :
    (∀ m : Mmap Cow, m.intoOwned.view = m.view ∧ m.intoOwned.filename.IsOwned) ∧
    (∀ m : Comm Cow, m.intoOwned.view = m.view ∧ m.intoOwned.comm.IsOwned) ∧
    (∀ m : Mmap2 Cow, m.intoOwned.view = m.view ∧ m.intoOwned.filename.IsOwned) ∧
    (∀ m : KSymbol Cow, m.intoOwned.view = m.view ∧ m.intoOwned.name.IsOwned) ∧
    (∀ m : CGroup Cow, m.intoOwned.view = m.view ∧ m.intoOwned.path.IsOwned) ∧
    (∀ m : TextPoke Cow, m.toOwned.view = m.view ∧ m.toOwned.oldBytes.IsOwned ∧ m.toOwned.newBytes.IsOwned) ∧
    (∀ g : ReadGroup Cow, g.intoOwned.view = g.view ∧ g.intoOwned.data.IsOwned) :=
  ⟨fun _ => ⟨rfl, _, rfl⟩, fun _ => ⟨rfl, _, rfl⟩, fun _ => ⟨rfl, _, rfl⟩, fun _ => ⟨rfl, _, rfl⟩, fun _ => ⟨rfl, _, rfl⟩,
    fun _ => ⟨rfl, ⟨_, rfl⟩, _, rfl⟩, fun _ => ⟨rfl, _, rfl⟩⟩

/-- **C56** The accessors of MMAP2 and of read groups return the same after it. -/
theorem c56_accessors (m : Mmap2 Cow) (g : ReadGroup Cow) (i : Nat) (id : U64) :
    m.intoOwned.maj = m.maj ∧ m.intoOwned.min = m.min ∧ m.intoOwned.ino = m.ino ∧ m.intoOwned.inoGeneration = m.inoGeneration ∧
    m.intoOwned.buildId = m.buildId ∧
    g.intoOwned.len = g.len ∧ g.intoOwned.isEmpty = g.isEmpty ∧ g.intoOwned.getTimeEnabled = g.getTimeEnabled ∧
    g.intoOwned.getTimeRunning = g.getTimeRunning ∧ g.intoOwned.get i = g.get i ∧ g.intoOwned.getById id = g.getById id ∧
    g.intoOwned.entries = g.entries := ⟨rfl, rfl, rfl, rfl, rfl, rfl, rfl, rfl, rfl, rfl, rfl, rfl⟩

/-- **C56** `into_mmap`/`to_mmap` keeps what an MMAP record has in common with an MMAP2 record, byte for byte and without copying. -/
theorem c56_mmap (m : Mmap2 Cow) : m.intoMmap.pid = m.pid ∧ m.intoMmap.tid = m.tid ∧ m.intoMmap.addr = m.addr ∧
    m.intoMmap.len = m.len ∧ m.intoMmap.pgoff = m.pgoff ∧ m.intoMmap.filename = m.filename := ⟨rfl, rfl, rfl, rfl, rfl, rfl⟩

example : (Comm.intoOwned ⟨1, 2, .borrowed [0x61]⟩).comm = .owned [0x61] := rfl

end Perf
